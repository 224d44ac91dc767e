/-!
# Text of `data/circ/aes_128.txt`, part 1 of 4

Generated by `tools/gen_circuits.py`.
-/

namespace Verif.Data

/-- The first four lines of `data/circ/aes_128.txt`. -/
def aesHead : String := "36663 36919\n2 128 128 \n1 128 \n\n"

/-- What follows the last gate of `data/circ/aes_128.txt`. -/
def aesTail : String := "\n\n"

/-- Lines 5-9220 of `data/circ/aes_128.txt`, 128 per string. -/
def aesBlocks00 : List String := [
"2 1 128 0 33254 XOR\n2 1 129 1 33255 XOR\n2 1 130 2 33256 XOR\n2 1 131 3 33257 XOR\n2 1 132 4 33258 XOR\n2 1 133 5 33259 XOR\n2 1 134 6 33260 XOR\n2 1 135 7 33261 XOR\n2 1 136 8 33262 XOR\n2 1 137 9 33263 XOR\n2 1 138 10 33264 XOR\n2 1 139 11 33265 XOR\n2 1 140 12 33266 XOR\n2 1 141 13 33267 XOR\n2 1 142 14 33268 XOR\n2 1 143 15 33269 XOR\n2 1 144 16 33270 XOR\n2 1 145 17 33271 XOR\n2 1 146 18 33272 XOR\n2 1 147 19 33273 XOR\n2 1 148 20 33274 XOR\n2 1 149 21 33275 XOR\n2 1 150 22 33276 XOR\n2 1 151 23 33277 XOR\n2 1 152 24 33278 XOR\n2 1 153 25 33279 XOR\n2 1 154 26 33280 XOR\n2 1 155 27 33281 XOR\n2 1 156 28 33282 XOR\n2 1 157 29 33283 XOR\n2 1 158 30 33284 XOR\n2 1 159 31 33285 XOR\n2 1 160 32 33286 XOR\n2 1 161 33 33287 XOR\n2 1 162 34 33288 XOR\n2 1 163 35 33289 XOR\n2 1 164 36 33290 XOR\n2 1 165 37 33291 XOR\n2 1 166 38 33292 XOR\n2 1 167 39 33293 XOR\n2 1 168 40 33294 XOR\n2 1 169 41 33295 XOR\n2 1 170 42 33296 XOR\n2 1 171 43 33297 XOR\n2 1 172 44 33298 XOR\n2 1 173 45 33299 XOR\n2 1 174 46 33300 XOR\n2 1 175 47 33301 XOR\n2 1 176 48 33302 XOR\n2 1 177 49 33303 XOR\n2 1 178 50 33304 XOR\n2 1 179 51 33305 XOR\n2 1 180 52 33306 XOR\n2 1 181 53 33307 XOR\n2 1 182 54 33308 XOR\n2 1 183 55 33309 XOR\n2 1 184 56 33310 XOR\n2 1 185 57 33311 XOR\n2 1 186 58 33312 XOR\n2 1 187 59 33313 XOR\n2 1 188 60 33314 XOR\n2 1 189 61 33315 XOR\n2 1 190 62 33316 XOR\n2 1 191 63 33317 XOR\n2 1 192 64 33318 XOR\n2 1 193 65 33319 XOR\n2 1 194 66 33320 XOR\n2 1 195 67 33321 XOR\n2 1 196 68 33322 XOR\n2 1 197 69 33323 XOR\n2 1 198 70 33324 XOR\n2 1 199 71 33325 XOR\n2 1 200 72 33326 XOR\n2 1 201 73 33327 XOR\n2 1 202 74 33328 XOR\n2 1 203 75 33329 XOR\n2 1 204 76 33330 XOR\n2 1 205 77 33331 XOR\n2 1 206 78 33332 XOR\n2 1 207 79 33333 XOR\n2 1 208 80 33334 XOR\n2 1 209 81 33335 XOR\n2 1 210 82 33336 XOR\n2 1 211 83 33337 XOR\n2 1 212 84 33338 XOR\n2 1 213 85 33339 XOR\n2 1 214 86 33340 XOR\n2 1 215 87 33341 XOR\n2 1 216 88 33342 XOR\n2 1 217 89 33343 XOR\n2 1 218 90 33344 XOR\n2 1 219 91 33345 XOR\n2 1 220 92 33346 XOR\n2 1 221 93 33347 XOR\n2 1 222 94 33348 XOR\n2 1 223 95 33349 XOR\n2 1 224 96 33350 XOR\n2 1 225 97 33351 XOR\n2 1 226 98 33352 XOR\n2 1 227 99 33353 XOR\n2 1 228 100 33354 XOR\n2 1 229 101 33355 XOR\n2 1 230 102 33356 XOR\n2 1 231 103 33357 XOR\n2 1 232 104 33358 XOR\n2 1 233 105 33359 XOR\n2 1 234 106 33360 XOR\n2 1 235 107 33361 XOR\n2 1 236 108 33362 XOR\n2 1 237 109 33363 XOR\n2 1 238 110 33364 XOR\n2 1 239 111 33365 XOR\n2 1 240 112 33366 XOR\n2 1 241 113 33367 XOR\n2 1 242 114 33368 XOR\n2 1 243 115 33369 XOR\n2 1 244 116 33370 XOR\n2 1 245 117 33371 XOR\n2 1 246 118 33372 XOR\n2 1 247 119 33373 XOR\n2 1 248 120 33374 XOR\n2 1 249 121 33375 XOR\n2 1 250 122 33376 XOR\n2 1 251 123 33377 XOR\n2 1 252 124 33378 XOR\n2 1 253 125 33379 XOR\n2 1 254 126 33380 XOR\n2 1 255 127 33381 XOR\n",
"2 1 33271 33273 3456 XOR\n2 1 33275 33277 3457 XOR\n2 1 33272 3456 3458 XOR\n2 1 33276 3458 3539 XOR\n2 1 33275 3458 3536 XOR\n2 1 33274 33276 3459 XOR\n2 1 33270 33276 3463 XOR\n2 1 3463 3458 3538 XOR\n2 1 33274 33277 3550 XOR\n2 1 3457 3463 3545 XOR\n2 1 3456 3550 3542 XOR\n2 1 33270 3542 3541 XOR\n2 1 33271 33272 3473 XOR\n2 1 3473 3545 3543 XOR\n2 1 3550 3473 3546 XOR\n2 1 33272 33274 3552 XOR\n2 1 3457 3552 3537 XOR\n2 1 33275 3463 3548 XOR\n2 1 33271 3548 3544 XOR\n2 1 33273 33272 3433 XOR\n2 1 3459 3457 3419 XOR\n2 1 3456 3419 3540 XOR\n2 1 3459 33275 3418 XOR\n2 1 33270 3418 3547 XOR\n2 1 33277 33271 3551 XOR\n2 1 33277 33272 3549 XOR\n2 1 3542 3546 3535 AND\n2 1 3535 3459 3462 XOR\n2 1 3543 3541 3534 AND\n2 1 3547 33270 3533 AND\n2 1 3551 3536 3532 AND\n2 1 3532 3457 3461 XOR\n2 1 3548 3544 3531 AND\n2 1 3545 3538 3530 AND\n2 1 3550 3539 3529 AND\n2 1 3529 3458 3460 XOR\n2 1 3462 3460 3466 XOR\n2 1 33277 3466 3471 XOR\n2 1 3552 3537 3528 AND\n2 1 3528 3534 3480 XOR\n2 1 3480 3471 3526 XOR\n2 1 3528 3529 3432 XOR\n2 1 3432 3433 3479 XOR\n2 1 3479 3461 3478 XOR\n2 1 3531 3478 3525 XOR\n2 1 3549 3540 3527 AND\n2 1 3527 3530 3481 XOR\n2 1 3527 3533 3485 XOR\n2 1 3485 3457 3472 XOR\n2 1 3480 3472 3523 XOR\n2 1 3528 3481 3475 XOR\n2 1 3461 3481 3435 XOR\n2 1 3435 3460 3524 XOR\n2 1 3466 3485 3434 XOR\n2 1 33275 3434 3477 XOR\n2 1 3531 3475 3431 XOR\n2 1 33271 3431 3518 XOR\n2 1 3526 3525 3522 AND\n2 1 3522 3477 3517 XOR\n2 1 3522 3524 3521 XOR\n2 1 3523 3521 3520 AND\n2 1 3520 3477 3519 XOR\n2 1 3520 3532 3426 XOR\n2 1 3426 3462 3422 XOR\n2 1 33277 3422 3425 XOR\n2 1 3520 3471 3423 XOR\n2 1 33275 3422 3421 XOR\n2 1 3517 3518 3516 AND\n2 1 3516 3524 3515 XOR\n2 1 3522 3516 3514 XOR\n2 1 3516 3475 3430 XOR\n2 1 3516 3533 3429 XOR\n2 1 3429 3530 3424 XOR\n2 1 3424 3425 3507 XOR\n2 1 3524 3514 3513 AND\n2 1 3513 3521 3511 XOR\n2 1 3513 3531 3484 XOR\n2 1 3484 3478 3505 XOR\n2 1 33271 3484 3467 XOR\n2 1 3467 3430 3512 XOR\n2 1 3519 3511 3510 AND\n2 1 3510 3480 3470 XOR\n2 1 3470 3472 3509 XOR\n2 1 3510 3534 3428 XOR\n2 1 3467 3428 3420 XOR\n2 1 3457 3420 3427 XOR\n2 1 3424 3427 3508 XOR\n2 1 3470 3423 3506 XOR\n2 1 3420 3421 3504 XOR\n2 1 3505 3542 3503 AND\n2 1 3512 3541 3502 AND\n2 1 3515 33270 3501 AND\n2 1 3501 3503 3483 XOR\n2 1 3506 3536 3500 AND\n2 1 3509 3548 3499 AND\n2 1 3519 3538 3498 AND\n2 1 3498 3499 3437 XOR\n2 1 3507 3539 3497 AND\n2 1 3504 3537 3496 AND\n2 1 3496 3499 3452 XOR\n1 1 3452 3449 INV\n2 1 3496 3497 3448 XOR\n2 1 3508 3540 3495 AND\n2 1 3505 3546 3494 AND\n2 1 3512 3543 3493 AND\n2 1 3515 3547 3492 AND\n2 1 3506 3551 3491 AND\n2 1 3491 3495 3468 XOR\n2 1 3500 3491 3453 XOR\n1 1 3468 3446 INV\n2 1 3509 3544 3490 AND\n2 1 3498 3490 3455 XOR\n2 1 3519 3545 3489 AND\n2 1 3446 3489 3445 XOR\n2 1 3445 3483 3441 XOR\n2 1 3507 3550 3488 AND\n2 1 3488 3441 3444 XOR\n2 1 3504 3552 3487 AND\n2 1 3487 3488 3482 XOR\n2 1 3493 3482 3464 XOR\n2 1 3494 3464 3465 XOR\n2 1 3502 3465 3469 XOR\n2 1 3503 3469 3474 XOR\n2 1 3455 3482 3451 XOR\n2 1 3483 3451 3454 XOR\n2 1 3453 3454 3556 XOR\n2 1 3446 3451 3450 XOR\n2 1 3449 3450 3555 XOR\n",
"2 1 3474 3448 3554 XOR\n2 1 3464 3441 3440 XOR\n2 1 3501 3469 3438 XOR\n2 1 3437 3438 34820 XOR\n2 1 3508 3549 3486 AND\n2 1 3497 3486 3447 XOR\n1 1 3447 3443 INV\n2 1 3443 3444 3553 XOR\n2 1 33279 33281 3595 XOR\n2 1 33283 33285 3596 XOR\n2 1 33280 3595 3597 XOR\n2 1 33284 3597 3678 XOR\n2 1 33283 3597 3675 XOR\n2 1 33282 33284 3598 XOR\n2 1 33278 33284 3602 XOR\n2 1 3602 3597 3677 XOR\n2 1 33282 33285 3689 XOR\n2 1 3596 3602 3684 XOR\n2 1 3595 3689 3681 XOR\n2 1 33278 3681 3680 XOR\n2 1 33279 33280 3612 XOR\n2 1 3612 3684 3682 XOR\n2 1 3689 3612 3685 XOR\n2 1 33280 33282 3691 XOR\n2 1 3596 3691 3676 XOR\n2 1 33283 3602 3687 XOR\n2 1 33279 3687 3683 XOR\n2 1 33281 33280 3572 XOR\n2 1 3598 3596 3558 XOR\n2 1 3595 3558 3679 XOR\n2 1 3598 33283 3557 XOR\n2 1 33278 3557 3686 XOR\n2 1 33285 33279 3690 XOR\n2 1 33285 33280 3688 XOR\n2 1 3681 3685 3674 AND\n2 1 3674 3598 3601 XOR\n2 1 3682 3680 3673 AND\n2 1 3686 33278 3672 AND\n2 1 3690 3675 3671 AND\n2 1 3671 3596 3600 XOR\n2 1 3687 3683 3670 AND\n2 1 3684 3677 3669 AND\n2 1 3689 3678 3668 AND\n2 1 3668 3597 3599 XOR\n2 1 3601 3599 3605 XOR\n2 1 33285 3605 3610 XOR\n2 1 3691 3676 3667 AND\n2 1 3667 3673 3619 XOR\n2 1 3619 3610 3665 XOR\n2 1 3667 3668 3571 XOR\n2 1 3571 3572 3618 XOR\n2 1 3618 3600 3617 XOR\n2 1 3670 3617 3664 XOR\n2 1 3688 3679 3666 AND\n2 1 3666 3669 3620 XOR\n2 1 3666 3672 3624 XOR\n2 1 3624 3596 3611 XOR\n2 1 3619 3611 3662 XOR\n2 1 3667 3620 3614 XOR\n2 1 3600 3620 3574 XOR\n2 1 3574 3599 3663 XOR\n2 1 3605 3624 3573 XOR\n2 1 33283 3573 3616 XOR\n2 1 3670 3614 3570 XOR\n2 1 33279 3570 3657 XOR\n2 1 3665 3664 3661 AND\n2 1 3661 3616 3656 XOR\n2 1 3661 3663 3660 XOR\n2 1 3662 3660 3659 AND\n2 1 3659 3616 3658 XOR\n2 1 3659 3671 3565 XOR\n2 1 3565 3601 3561 XOR\n2 1 33285 3561 3564 XOR\n2 1 3659 3610 3562 XOR\n2 1 33283 3561 3560 XOR\n2 1 3656 3657 3655 AND\n2 1 3655 3663 3654 XOR\n2 1 3661 3655 3653 XOR\n2 1 3655 3614 3569 XOR\n2 1 3655 3672 3568 XOR\n2 1 3568 3669 3563 XOR\n2 1 3563 3564 3646 XOR\n2 1 3663 3653 3652 AND\n2 1 3652 3660 3650 XOR\n2 1 3652 3670 3623 XOR\n2 1 3623 3617 3644 XOR\n2 1 33279 3623 3606 XOR\n2 1 3606 3569 3651 XOR\n2 1 3658 3650 3649 AND\n2 1 3649 3619 3609 XOR\n2 1 3609 3611 3648 XOR\n2 1 3649 3673 3567 XOR\n2 1 3606 3567 3559 XOR\n2 1 3596 3559 3566 XOR\n2 1 3563 3566 3647 XOR\n2 1 3609 3562 3645 XOR\n2 1 3559 3560 3643 XOR\n2 1 3644 3681 3642 AND\n2 1 3651 3680 3641 AND\n2 1 3654 33278 3640 AND\n2 1 3640 3642 3622 XOR\n2 1 3645 3675 3639 AND\n2 1 3648 3687 3638 AND\n2 1 3658 3677 3637 AND\n2 1 3637 3638 3576 XOR\n2 1 3646 3678 3636 AND\n2 1 3643 3676 3635 AND\n2 1 3635 3638 3591 XOR\n1 1 3591 3588 INV\n2 1 3635 3636 3587 XOR\n2 1 3647 3679 3634 AND\n2 1 3644 3685 3633 AND\n2 1 3651 3682 3632 AND\n2 1 3654 3686 3631 AND\n2 1 3645 3690 3630 AND\n2 1 3630 3634 3607 XOR\n2 1 3639 3630 3592 XOR\n1 1 3607 3585 INV\n2 1 3648 3683 3629 AND\n2 1 3637 3629 3594 XOR\n2 1 3658 3684 3628 AND\n2 1 3585 3628 3584 XOR\n2 1 3584 3622 3580 XOR\n2 1 3646 3689 3627 AND\n2 1 3627 3580 3583 XOR\n2 1 3643 3691 3626 AND\n2 1 3626 3627 3621 XOR\n2 1 3632 3621 3603 XOR\n",
"2 1 3633 3603 3604 XOR\n2 1 3641 3604 3608 XOR\n2 1 3642 3608 3613 XOR\n2 1 3594 3621 3590 XOR\n2 1 3622 3590 3593 XOR\n2 1 3592 3593 3695 XOR\n2 1 3585 3590 3589 XOR\n2 1 3588 3589 3694 XOR\n2 1 3613 3587 3693 XOR\n2 1 3603 3580 3579 XOR\n2 1 3640 3608 3577 XOR\n2 1 3576 3577 34806 XOR\n2 1 3647 3688 3625 AND\n2 1 3636 3625 3586 XOR\n1 1 3586 3582 INV\n2 1 3582 3583 3692 XOR\n1 1 3693 34808 INV\n2 1 33287 33289 3734 XOR\n2 1 33291 33293 3735 XOR\n2 1 33288 3734 3736 XOR\n2 1 33292 3736 3817 XOR\n2 1 33291 3736 3814 XOR\n2 1 33290 33292 3737 XOR\n2 1 33286 33292 3741 XOR\n2 1 3741 3736 3816 XOR\n2 1 33290 33293 3828 XOR\n2 1 3735 3741 3823 XOR\n2 1 3734 3828 3820 XOR\n2 1 33286 3820 3819 XOR\n2 1 33287 33288 3751 XOR\n2 1 3751 3823 3821 XOR\n2 1 3828 3751 3824 XOR\n2 1 33288 33290 3830 XOR\n2 1 3735 3830 3815 XOR\n2 1 33291 3741 3826 XOR\n2 1 33287 3826 3822 XOR\n2 1 33289 33288 3711 XOR\n2 1 3737 3735 3697 XOR\n2 1 3734 3697 3818 XOR\n2 1 3737 33291 3696 XOR\n2 1 33286 3696 3825 XOR\n2 1 33293 33287 3829 XOR\n2 1 33293 33288 3827 XOR\n2 1 3820 3824 3813 AND\n2 1 3813 3737 3740 XOR\n2 1 3821 3819 3812 AND\n2 1 3825 33286 3811 AND\n2 1 3829 3814 3810 AND\n2 1 3810 3735 3739 XOR\n2 1 3826 3822 3809 AND\n2 1 3823 3816 3808 AND\n2 1 3828 3817 3807 AND\n2 1 3807 3736 3738 XOR\n2 1 3740 3738 3744 XOR\n2 1 33293 3744 3749 XOR\n2 1 3830 3815 3806 AND\n2 1 3806 3812 3758 XOR\n2 1 3758 3749 3804 XOR\n2 1 3806 3807 3710 XOR\n2 1 3710 3711 3757 XOR\n2 1 3757 3739 3756 XOR\n2 1 3809 3756 3803 XOR\n2 1 3827 3818 3805 AND\n2 1 3805 3808 3759 XOR\n2 1 3805 3811 3763 XOR\n2 1 3763 3735 3750 XOR\n2 1 3758 3750 3801 XOR\n2 1 3806 3759 3753 XOR\n2 1 3739 3759 3713 XOR\n2 1 3713 3738 3802 XOR\n2 1 3744 3763 3712 XOR\n2 1 33291 3712 3755 XOR\n2 1 3809 3753 3709 XOR\n2 1 33287 3709 3796 XOR\n2 1 3804 3803 3800 AND\n2 1 3800 3755 3795 XOR\n2 1 3800 3802 3799 XOR\n2 1 3801 3799 3798 AND\n2 1 3798 3755 3797 XOR\n2 1 3798 3810 3704 XOR\n2 1 3704 3740 3700 XOR\n2 1 33293 3700 3703 XOR\n2 1 3798 3749 3701 XOR\n2 1 33291 3700 3699 XOR\n2 1 3795 3796 3794 AND\n2 1 3794 3802 3793 XOR\n2 1 3800 3794 3792 XOR\n2 1 3794 3753 3708 XOR\n2 1 3794 3811 3707 XOR\n2 1 3707 3808 3702 XOR\n2 1 3702 3703 3785 XOR\n2 1 3802 3792 3791 AND\n2 1 3791 3799 3789 XOR\n2 1 3791 3809 3762 XOR\n2 1 3762 3756 3783 XOR\n2 1 33287 3762 3745 XOR\n2 1 3745 3708 3790 XOR\n2 1 3797 3789 3788 AND\n2 1 3788 3758 3748 XOR\n2 1 3748 3750 3787 XOR\n2 1 3788 3812 3706 XOR\n2 1 3745 3706 3698 XOR\n2 1 3735 3698 3705 XOR\n2 1 3702 3705 3786 XOR\n2 1 3748 3701 3784 XOR\n2 1 3698 3699 3782 XOR\n2 1 3783 3820 3781 AND\n2 1 3790 3819 3780 AND\n2 1 3793 33286 3779 AND\n2 1 3779 3781 3761 XOR\n2 1 3784 3814 3778 AND\n2 1 3787 3826 3777 AND\n2 1 3797 3816 3776 AND\n2 1 3776 3777 3715 XOR\n2 1 3785 3817 3775 AND\n2 1 3782 3815 3774 AND\n2 1 3774 3777 3730 XOR\n1 1 3730 3727 INV\n2 1 3774 3775 3726 XOR\n2 1 3786 3818 3773 AND\n2 1 3783 3824 3772 AND\n2 1 3790 3821 3771 AND\n2 1 3793 3825 3770 AND\n2 1 3784 3829 3769 AND\n2 1 3769 3773 3746 XOR\n2 1 3778 3769 3731 XOR\n1 1 3746 3724 INV\n2 1 3787 3822 3768 AND\n",
"2 1 3776 3768 3733 XOR\n2 1 3797 3823 3767 AND\n2 1 3724 3767 3723 XOR\n2 1 3723 3761 3719 XOR\n2 1 3785 3828 3766 AND\n2 1 3766 3719 3722 XOR\n2 1 3782 3830 3765 AND\n2 1 3765 3766 3760 XOR\n2 1 3771 3760 3742 XOR\n2 1 3772 3742 3743 XOR\n2 1 3780 3743 3747 XOR\n2 1 3781 3747 3752 XOR\n2 1 3733 3760 3729 XOR\n2 1 3761 3729 3732 XOR\n2 1 3731 3732 3834 XOR\n2 1 3724 3729 3728 XOR\n2 1 3727 3728 3833 XOR\n2 1 3752 3726 3832 XOR\n2 1 3742 3719 3718 XOR\n2 1 3779 3747 3716 XOR\n2 1 3715 3716 34791 XOR\n2 1 3786 3827 3764 AND\n2 1 3775 3764 3725 XOR\n1 1 3725 3721 INV\n2 1 3721 3722 3831 XOR\n2 1 33295 33297 3873 XOR\n2 1 33299 33301 3874 XOR\n2 1 33296 3873 3875 XOR\n2 1 33300 3875 3957 XOR\n2 1 33299 3875 3954 XOR\n2 1 33298 33300 3876 XOR\n2 1 33294 33300 3880 XOR\n2 1 3880 3875 3956 XOR\n2 1 33298 33301 3968 XOR\n2 1 3874 3880 3963 XOR\n2 1 3873 3968 3960 XOR\n2 1 33294 3960 3959 XOR\n2 1 33295 33296 3890 XOR\n2 1 3890 3963 3961 XOR\n2 1 3968 3890 3964 XOR\n2 1 33296 33298 3970 XOR\n2 1 3874 3970 3955 XOR\n2 1 33299 3880 3966 XOR\n2 1 33295 3966 3962 XOR\n2 1 33297 33296 3850 XOR\n2 1 3876 3874 3836 XOR\n2 1 3873 3836 3958 XOR\n2 1 3876 33299 3835 XOR\n2 1 33294 3835 3965 XOR\n2 1 33301 33295 3969 XOR\n2 1 33301 33296 3967 XOR\n2 1 3960 3964 3953 AND\n2 1 3953 3876 3879 XOR\n2 1 3961 3959 3952 AND\n2 1 3965 33294 3951 AND\n2 1 3969 3954 3950 AND\n2 1 3950 3874 3878 XOR\n2 1 3966 3962 3949 AND\n2 1 3963 3956 3948 AND\n2 1 3968 3957 3947 AND\n2 1 3947 3875 3877 XOR\n2 1 3879 3877 3883 XOR\n2 1 33301 3883 3888 XOR\n2 1 3970 3955 3946 AND\n2 1 3946 3952 3897 XOR\n2 1 3897 3888 3944 XOR\n2 1 3946 3947 3849 XOR\n2 1 3849 3850 3896 XOR\n2 1 3896 3878 3895 XOR\n2 1 3949 3895 3943 XOR\n2 1 3967 3958 3945 AND\n2 1 3945 3948 3898 XOR\n2 1 3945 3951 3902 XOR\n2 1 3902 3874 3889 XOR\n2 1 3897 3889 3941 XOR\n2 1 3946 3898 3892 XOR\n2 1 3878 3898 3852 XOR\n2 1 3852 3877 3942 XOR\n2 1 3883 3902 3851 XOR\n2 1 33299 3851 3894 XOR\n2 1 3949 3892 3848 XOR\n2 1 33295 3848 3936 XOR\n2 1 3944 3943 3940 AND\n2 1 3940 3894 3935 XOR\n2 1 3940 3942 3939 XOR\n2 1 3941 3939 3938 AND\n2 1 3938 3894 3937 XOR\n2 1 3938 3950 3843 XOR\n2 1 3843 3879 3839 XOR\n2 1 33301 3839 3842 XOR\n2 1 3938 3888 3840 XOR\n2 1 33299 3839 3838 XOR\n2 1 3935 3936 3934 AND\n2 1 3934 3942 3933 XOR\n2 1 3940 3934 3932 XOR\n2 1 3934 3892 3847 XOR\n2 1 3934 3951 3846 XOR\n2 1 3846 3948 3841 XOR\n2 1 3841 3842 3925 XOR\n2 1 3942 3932 3931 AND\n2 1 3931 3939 3929 XOR\n2 1 3931 3949 3901 XOR\n2 1 3901 3895 3923 XOR\n2 1 33295 3901 3884 XOR\n2 1 3884 3847 3930 XOR\n2 1 3937 3929 3928 AND\n2 1 3928 3897 3887 XOR\n2 1 3887 3889 3927 XOR\n2 1 3928 3952 3845 XOR\n2 1 3884 3845 3837 XOR\n2 1 3874 3837 3844 XOR\n2 1 3841 3844 3926 XOR\n2 1 3887 3840 3924 XOR\n2 1 3837 3838 3922 XOR\n2 1 3923 3960 3921 AND\n2 1 3930 3959 3920 AND\n2 1 3933 33294 3919 AND\n2 1 3919 3921 3900 XOR\n2 1 3924 3954 3918 AND\n2 1 3927 3966 3917 AND\n2 1 3917 3918 3903 XOR\n2 1 3937 3956 3916 AND\n2 1 3916 3917 3854 XOR\n2 1 3925 3957 3915 AND\n2 1 3922 3955 3914 AND\n2 1 3914 3903 3893 XOR\n2 1 3914 3917 3869 XOR\n1 1 3869 3866 INV\n",
"2 1 3914 3915 3865 XOR\n2 1 3915 3893 3853 XOR\n2 1 3926 3958 3913 AND\n2 1 3923 3964 3912 AND\n2 1 3930 3961 3911 AND\n2 1 3933 3965 3910 AND\n2 1 3910 3893 3859 XOR\n1 1 3859 3856 INV\n2 1 3924 3969 3909 AND\n2 1 3909 3913 3885 XOR\n2 1 3918 3909 3870 XOR\n1 1 3885 3863 INV\n2 1 3927 3962 3908 AND\n2 1 3916 3908 3872 XOR\n2 1 3937 3963 3907 AND\n2 1 3863 3907 3862 XOR\n2 1 3862 3900 3858 XOR\n2 1 3925 3968 3906 AND\n2 1 3906 3858 3861 XOR\n2 1 3922 3970 3905 AND\n2 1 3905 3906 3899 XOR\n2 1 3911 3899 3881 XOR\n2 1 3912 3881 3882 XOR\n2 1 3920 3882 3886 XOR\n2 1 3921 3886 3891 XOR\n2 1 3903 3891 34853 XOR\n2 1 3872 3899 3868 XOR\n2 1 3900 3868 3871 XOR\n2 1 3870 3871 3974 XOR\n2 1 3863 3868 3867 XOR\n2 1 3866 3867 3973 XOR\n2 1 3891 3865 3972 XOR\n2 1 3881 3858 3857 XOR\n2 1 3856 3857 34851 XOR\n2 1 3919 3886 3855 XOR\n2 1 3854 3855 34852 XOR\n2 1 3882 3853 34854 XOR\n2 1 3926 3967 3904 AND\n2 1 3915 3904 3864 XOR\n1 1 3864 3860 INV\n2 1 3860 3861 3971 XOR\n2 1 33319 33321 4013 XOR\n2 1 33323 33325 4014 XOR\n2 1 33320 4013 4015 XOR\n2 1 33324 4015 4096 XOR\n2 1 33323 4015 4093 XOR\n2 1 33322 33324 4016 XOR\n2 1 33318 33324 4020 XOR\n2 1 4020 4015 4095 XOR\n2 1 33322 33325 4107 XOR\n2 1 4014 4020 4102 XOR\n2 1 4013 4107 4099 XOR\n2 1 33318 4099 4098 XOR\n2 1 33319 33320 4030 XOR\n2 1 4030 4102 4100 XOR\n2 1 4107 4030 4103 XOR\n2 1 33320 33322 4109 XOR\n2 1 4014 4109 4094 XOR\n2 1 33323 4020 4105 XOR\n2 1 33319 4105 4101 XOR\n2 1 33321 33320 3990 XOR\n2 1 4016 4014 3976 XOR\n2 1 4013 3976 4097 XOR\n2 1 4016 33323 3975 XOR\n2 1 33318 3975 4104 XOR\n2 1 33325 33319 4108 XOR\n2 1 33325 33320 4106 XOR\n2 1 4099 4103 4092 AND\n2 1 4092 4016 4019 XOR\n2 1 4100 4098 4091 AND\n2 1 4104 33318 4090 AND\n2 1 4108 4093 4089 AND\n2 1 4089 4014 4018 XOR\n2 1 4105 4101 4088 AND\n2 1 4102 4095 4087 AND\n2 1 4107 4096 4086 AND\n2 1 4086 4015 4017 XOR\n2 1 4019 4017 4023 XOR\n2 1 33325 4023 4028 XOR\n2 1 4109 4094 4085 AND\n2 1 4085 4091 4037 XOR\n2 1 4037 4028 4083 XOR\n2 1 4085 4086 3989 XOR\n2 1 3989 3990 4036 XOR\n2 1 4036 4018 4035 XOR\n2 1 4088 4035 4082 XOR\n2 1 4106 4097 4084 AND\n2 1 4084 4087 4038 XOR\n2 1 4084 4090 4042 XOR\n2 1 4042 4014 4029 XOR\n2 1 4037 4029 4080 XOR\n2 1 4085 4038 4032 XOR\n2 1 4018 4038 3992 XOR\n2 1 3992 4017 4081 XOR\n2 1 4023 4042 3991 XOR\n2 1 33323 3991 4034 XOR\n2 1 4088 4032 3988 XOR\n2 1 33319 3988 4075 XOR\n2 1 4083 4082 4079 AND\n2 1 4079 4034 4074 XOR\n2 1 4079 4081 4078 XOR\n2 1 4080 4078 4077 AND\n2 1 4077 4034 4076 XOR\n2 1 4077 4089 3983 XOR\n2 1 3983 4019 3979 XOR\n2 1 33325 3979 3982 XOR\n2 1 4077 4028 3980 XOR\n2 1 33323 3979 3978 XOR\n2 1 4074 4075 4073 AND\n2 1 4073 4081 4072 XOR\n2 1 4079 4073 4071 XOR\n2 1 4073 4032 3987 XOR\n2 1 4073 4090 3986 XOR\n2 1 3986 4087 3981 XOR\n2 1 3981 3982 4064 XOR\n2 1 4081 4071 4070 AND\n2 1 4070 4078 4068 XOR\n2 1 4070 4088 4041 XOR\n2 1 4041 4035 4062 XOR\n2 1 33319 4041 4024 XOR\n2 1 4024 3987 4069 XOR\n2 1 4076 4068 4067 AND\n2 1 4067 4037 4027 XOR\n2 1 4027 4029 4066 XOR\n2 1 4067 4091 3985 XOR\n2 1 4024 3985 3977 XOR\n2 1 4014 3977 3984 XOR\n2 1 3981 3984 4065 XOR\n",
"2 1 4027 3980 4063 XOR\n2 1 3977 3978 4061 XOR\n2 1 4062 4099 4060 AND\n2 1 4069 4098 4059 AND\n2 1 4072 33318 4058 AND\n2 1 4058 4060 4040 XOR\n2 1 4063 4093 4057 AND\n2 1 4066 4105 4056 AND\n2 1 4076 4095 4055 AND\n2 1 4055 4056 3994 XOR\n2 1 4064 4096 4054 AND\n2 1 4061 4094 4053 AND\n2 1 4053 4056 4009 XOR\n1 1 4009 4006 INV\n2 1 4053 4054 4005 XOR\n2 1 4065 4097 4052 AND\n2 1 4062 4103 4051 AND\n2 1 4069 4100 4050 AND\n2 1 4072 4104 4049 AND\n2 1 4063 4108 4048 AND\n2 1 4048 4052 4025 XOR\n2 1 4057 4048 4010 XOR\n1 1 4025 4003 INV\n2 1 4066 4101 4047 AND\n2 1 4055 4047 4012 XOR\n2 1 4076 4102 4046 AND\n2 1 4003 4046 4002 XOR\n2 1 4002 4040 3998 XOR\n2 1 4064 4107 4045 AND\n2 1 4045 3998 4001 XOR\n2 1 4061 4109 4044 AND\n2 1 4044 4045 4039 XOR\n2 1 4050 4039 4021 XOR\n2 1 4051 4021 4022 XOR\n2 1 4059 4022 4026 XOR\n2 1 4060 4026 4031 XOR\n2 1 4012 4039 4008 XOR\n2 1 4040 4008 4011 XOR\n2 1 4010 4011 4113 XOR\n2 1 4003 4008 4007 XOR\n2 1 4006 4007 4112 XOR\n2 1 4031 4005 4111 XOR\n2 1 4021 3998 3997 XOR\n2 1 4058 4026 3995 XOR\n2 1 3994 3995 34811 XOR\n2 1 4065 4106 4043 AND\n2 1 4054 4043 4004 XOR\n1 1 4004 4000 INV\n2 1 4000 4001 4110 XOR\n2 1 33327 33329 4152 XOR\n2 1 33331 33333 4153 XOR\n2 1 33328 4152 4154 XOR\n2 1 33332 4154 4235 XOR\n2 1 33331 4154 4232 XOR\n2 1 33330 33332 4155 XOR\n2 1 33326 33332 4159 XOR\n2 1 4159 4154 4234 XOR\n2 1 33330 33333 4246 XOR\n2 1 4153 4159 4241 XOR\n2 1 4152 4246 4238 XOR\n2 1 33326 4238 4237 XOR\n2 1 33327 33328 4169 XOR\n2 1 4169 4241 4239 XOR\n2 1 4246 4169 4242 XOR\n2 1 33328 33330 4248 XOR\n2 1 4153 4248 4233 XOR\n2 1 33331 4159 4244 XOR\n2 1 33327 4244 4240 XOR\n2 1 33329 33328 4129 XOR\n2 1 4155 4153 4115 XOR\n2 1 4152 4115 4236 XOR\n2 1 4155 33331 4114 XOR\n2 1 33326 4114 4243 XOR\n2 1 33333 33327 4247 XOR\n2 1 33333 33328 4245 XOR\n2 1 4238 4242 4231 AND\n2 1 4231 4155 4158 XOR\n2 1 4239 4237 4230 AND\n2 1 4243 33326 4229 AND\n2 1 4247 4232 4228 AND\n2 1 4228 4153 4157 XOR\n2 1 4244 4240 4227 AND\n2 1 4241 4234 4226 AND\n2 1 4246 4235 4225 AND\n2 1 4225 4154 4156 XOR\n2 1 4158 4156 4162 XOR\n2 1 33333 4162 4167 XOR\n2 1 4248 4233 4224 AND\n2 1 4224 4230 4176 XOR\n2 1 4176 4167 4222 XOR\n2 1 4224 4225 4128 XOR\n2 1 4128 4129 4175 XOR\n2 1 4175 4157 4174 XOR\n2 1 4227 4174 4221 XOR\n2 1 4245 4236 4223 AND\n2 1 4223 4226 4177 XOR\n2 1 4223 4229 4181 XOR\n2 1 4181 4153 4168 XOR\n2 1 4176 4168 4219 XOR\n2 1 4224 4177 4171 XOR\n2 1 4157 4177 4131 XOR\n2 1 4131 4156 4220 XOR\n2 1 4162 4181 4130 XOR\n2 1 33331 4130 4173 XOR\n2 1 4227 4171 4127 XOR\n2 1 33327 4127 4214 XOR\n2 1 4222 4221 4218 AND\n2 1 4218 4173 4213 XOR\n2 1 4218 4220 4217 XOR\n2 1 4219 4217 4216 AND\n2 1 4216 4173 4215 XOR\n2 1 4216 4228 4122 XOR\n2 1 4122 4158 4118 XOR\n2 1 33333 4118 4121 XOR\n2 1 4216 4167 4119 XOR\n2 1 33331 4118 4117 XOR\n2 1 4213 4214 4212 AND\n2 1 4212 4220 4211 XOR\n2 1 4218 4212 4210 XOR\n2 1 4212 4171 4126 XOR\n2 1 4212 4229 4125 XOR\n2 1 4125 4226 4120 XOR\n2 1 4120 4121 4203 XOR\n2 1 4220 4210 4209 AND\n2 1 4209 4217 4207 XOR\n2 1 4209 4227 4180 XOR\n2 1 4180 4174 4201 XOR\n2 1 33327 4180 4163 XOR\n",
"2 1 4163 4126 4208 XOR\n2 1 4215 4207 4206 AND\n2 1 4206 4176 4166 XOR\n2 1 4166 4168 4205 XOR\n2 1 4206 4230 4124 XOR\n2 1 4163 4124 4116 XOR\n2 1 4153 4116 4123 XOR\n2 1 4120 4123 4204 XOR\n2 1 4166 4119 4202 XOR\n2 1 4116 4117 4200 XOR\n2 1 4201 4238 4199 AND\n2 1 4208 4237 4198 AND\n2 1 4211 33326 4197 AND\n2 1 4197 4199 4179 XOR\n2 1 4202 4232 4196 AND\n2 1 4205 4244 4195 AND\n2 1 4215 4234 4194 AND\n2 1 4194 4195 4133 XOR\n2 1 4203 4235 4193 AND\n2 1 4200 4233 4192 AND\n2 1 4192 4195 4148 XOR\n1 1 4148 4145 INV\n2 1 4192 4193 4144 XOR\n2 1 4204 4236 4191 AND\n2 1 4201 4242 4190 AND\n2 1 4208 4239 4189 AND\n2 1 4211 4243 4188 AND\n2 1 4202 4247 4187 AND\n2 1 4187 4191 4164 XOR\n2 1 4196 4187 4149 XOR\n1 1 4164 4142 INV\n2 1 4205 4240 4186 AND\n2 1 4194 4186 4151 XOR\n2 1 4215 4241 4185 AND\n2 1 4142 4185 4141 XOR\n2 1 4141 4179 4137 XOR\n2 1 4203 4246 4184 AND\n2 1 4184 4137 4140 XOR\n2 1 4200 4248 4183 AND\n2 1 4183 4184 4178 XOR\n2 1 4189 4178 4160 XOR\n2 1 4190 4160 4161 XOR\n2 1 4198 4161 4165 XOR\n2 1 4199 4165 4170 XOR\n2 1 4151 4178 4147 XOR\n2 1 4179 4147 4150 XOR\n2 1 4149 4150 4252 XOR\n2 1 4142 4147 4146 XOR\n2 1 4145 4146 4251 XOR\n2 1 4170 4144 4250 XOR\n2 1 4160 4137 4136 XOR\n2 1 4197 4165 4134 XOR\n2 1 4133 4134 34795 XOR\n2 1 4204 4245 4182 AND\n2 1 4193 4182 4143 XOR\n1 1 4143 4139 INV\n2 1 4139 4140 4249 XOR\n1 1 4250 34798 INV\n1 1 4249 34797 INV\n2 1 33343 33345 4291 XOR\n2 1 33347 33349 4292 XOR\n2 1 33344 4291 4293 XOR\n2 1 33348 4293 4374 XOR\n2 1 33347 4293 4371 XOR\n2 1 33346 33348 4294 XOR\n2 1 33342 33348 4298 XOR\n2 1 4298 4293 4373 XOR\n2 1 33346 33349 4385 XOR\n2 1 4292 4298 4380 XOR\n2 1 4291 4385 4377 XOR\n2 1 33342 4377 4376 XOR\n2 1 33343 33344 4308 XOR\n2 1 4308 4380 4378 XOR\n2 1 4385 4308 4381 XOR\n2 1 33344 33346 4387 XOR\n2 1 4292 4387 4372 XOR\n2 1 33347 4298 4383 XOR\n2 1 33343 4383 4379 XOR\n2 1 33345 33344 4268 XOR\n2 1 4294 4292 4254 XOR\n2 1 4291 4254 4375 XOR\n2 1 4294 33347 4253 XOR\n2 1 33342 4253 4382 XOR\n2 1 33349 33343 4386 XOR\n2 1 33349 33344 4384 XOR\n2 1 4377 4381 4370 AND\n2 1 4370 4294 4297 XOR\n2 1 4378 4376 4369 AND\n2 1 4382 33342 4368 AND\n2 1 4386 4371 4367 AND\n2 1 4367 4292 4296 XOR\n2 1 4383 4379 4366 AND\n2 1 4380 4373 4365 AND\n2 1 4385 4374 4364 AND\n2 1 4364 4293 4295 XOR\n2 1 4297 4295 4301 XOR\n2 1 33349 4301 4306 XOR\n2 1 4387 4372 4363 AND\n2 1 4363 4369 4315 XOR\n2 1 4315 4306 4361 XOR\n2 1 4363 4364 4267 XOR\n2 1 4267 4268 4314 XOR\n2 1 4314 4296 4313 XOR\n2 1 4366 4313 4360 XOR\n2 1 4384 4375 4362 AND\n2 1 4362 4365 4316 XOR\n2 1 4362 4368 4320 XOR\n2 1 4320 4292 4307 XOR\n2 1 4315 4307 4358 XOR\n2 1 4363 4316 4310 XOR\n2 1 4296 4316 4270 XOR\n2 1 4270 4295 4359 XOR\n2 1 4301 4320 4269 XOR\n2 1 33347 4269 4312 XOR\n2 1 4366 4310 4266 XOR\n2 1 33343 4266 4353 XOR\n2 1 4361 4360 4357 AND\n2 1 4357 4312 4352 XOR\n2 1 4357 4359 4356 XOR\n2 1 4358 4356 4355 AND\n2 1 4355 4312 4354 XOR\n2 1 4355 4367 4261 XOR\n2 1 4261 4297 4257 XOR\n2 1 33349 4257 4260 XOR\n2 1 4355 4306 4258 XOR\n2 1 33347 4257 4256 XOR\n2 1 4352 4353 4351 AND\n2 1 4351 4359 4350 XOR\n",
"2 1 4357 4351 4349 XOR\n2 1 4351 4310 4265 XOR\n2 1 4351 4368 4264 XOR\n2 1 4264 4365 4259 XOR\n2 1 4259 4260 4342 XOR\n2 1 4359 4349 4348 AND\n2 1 4348 4356 4346 XOR\n2 1 4348 4366 4319 XOR\n2 1 4319 4313 4340 XOR\n2 1 33343 4319 4302 XOR\n2 1 4302 4265 4347 XOR\n2 1 4354 4346 4345 AND\n2 1 4345 4315 4305 XOR\n2 1 4305 4307 4344 XOR\n2 1 4345 4369 4263 XOR\n2 1 4302 4263 4255 XOR\n2 1 4292 4255 4262 XOR\n2 1 4259 4262 4343 XOR\n2 1 4305 4258 4341 XOR\n2 1 4255 4256 4339 XOR\n2 1 4340 4377 4338 AND\n2 1 4347 4376 4337 AND\n2 1 4350 33342 4336 AND\n2 1 4336 4338 4318 XOR\n2 1 4341 4371 4335 AND\n2 1 4344 4383 4334 AND\n2 1 4354 4373 4333 AND\n2 1 4333 4334 4272 XOR\n2 1 4342 4374 4332 AND\n2 1 4339 4372 4331 AND\n2 1 4331 4334 4287 XOR\n1 1 4287 4284 INV\n2 1 4331 4332 4283 XOR\n2 1 4343 4375 4330 AND\n2 1 4340 4381 4329 AND\n2 1 4347 4378 4328 AND\n2 1 4350 4382 4327 AND\n2 1 4341 4386 4326 AND\n2 1 4326 4330 4303 XOR\n2 1 4335 4326 4288 XOR\n1 1 4303 4281 INV\n2 1 4344 4379 4325 AND\n2 1 4333 4325 4290 XOR\n2 1 4354 4380 4324 AND\n2 1 4281 4324 4280 XOR\n2 1 4280 4318 4276 XOR\n2 1 4342 4385 4323 AND\n2 1 4323 4276 4279 XOR\n2 1 4339 4387 4322 AND\n2 1 4322 4323 4317 XOR\n2 1 4328 4317 4299 XOR\n2 1 4329 4299 4300 XOR\n2 1 4337 4300 4304 XOR\n2 1 4338 4304 4309 XOR\n2 1 4290 4317 4286 XOR\n2 1 4318 4286 4289 XOR\n2 1 4288 4289 4391 XOR\n2 1 4281 4286 4285 XOR\n2 1 4284 4285 4390 XOR\n2 1 4309 4283 4389 XOR\n2 1 4299 4276 4275 XOR\n2 1 4336 4304 4273 XOR\n2 1 4272 4273 34843 XOR\n2 1 4343 4384 4321 AND\n2 1 4332 4321 4282 XOR\n1 1 4282 4278 INV\n2 1 4278 4279 4388 XOR\n2 1 33351 33353 4430 XOR\n2 1 33355 33357 4431 XOR\n2 1 33352 4430 4432 XOR\n2 1 33356 4432 4513 XOR\n2 1 33355 4432 4510 XOR\n2 1 33354 33356 4433 XOR\n2 1 33350 33356 4437 XOR\n2 1 4437 4432 4512 XOR\n2 1 33354 33357 4524 XOR\n2 1 4431 4437 4519 XOR\n2 1 4430 4524 4516 XOR\n2 1 33350 4516 4515 XOR\n2 1 33351 33352 4447 XOR\n2 1 4447 4519 4517 XOR\n2 1 4524 4447 4520 XOR\n2 1 33352 33354 4526 XOR\n2 1 4431 4526 4511 XOR\n2 1 33355 4437 4522 XOR\n2 1 33351 4522 4518 XOR\n2 1 33353 33352 4407 XOR\n2 1 4433 4431 4393 XOR\n2 1 4430 4393 4514 XOR\n2 1 4433 33355 4392 XOR\n2 1 33350 4392 4521 XOR\n2 1 33357 33351 4525 XOR\n2 1 33357 33352 4523 XOR\n2 1 4516 4520 4509 AND\n2 1 4509 4433 4436 XOR\n2 1 4517 4515 4508 AND\n2 1 4521 33350 4507 AND\n2 1 4525 4510 4506 AND\n2 1 4506 4431 4435 XOR\n2 1 4522 4518 4505 AND\n2 1 4519 4512 4504 AND\n2 1 4524 4513 4503 AND\n2 1 4503 4432 4434 XOR\n2 1 4436 4434 4440 XOR\n2 1 33357 4440 4445 XOR\n2 1 4526 4511 4502 AND\n2 1 4502 4508 4454 XOR\n2 1 4454 4445 4500 XOR\n2 1 4502 4503 4406 XOR\n2 1 4406 4407 4453 XOR\n2 1 4453 4435 4452 XOR\n2 1 4505 4452 4499 XOR\n2 1 4523 4514 4501 AND\n2 1 4501 4504 4455 XOR\n2 1 4501 4507 4459 XOR\n2 1 4459 4431 4446 XOR\n2 1 4454 4446 4497 XOR\n2 1 4502 4455 4449 XOR\n2 1 4435 4455 4409 XOR\n2 1 4409 4434 4498 XOR\n2 1 4440 4459 4408 XOR\n2 1 33355 4408 4451 XOR\n2 1 4505 4449 4405 XOR\n2 1 33351 4405 4492 XOR\n2 1 4500 4499 4496 AND\n2 1 4496 4451 4491 XOR\n2 1 4496 4498 4495 XOR\n2 1 4497 4495 4494 AND\n",
"2 1 4494 4451 4493 XOR\n2 1 4494 4506 4400 XOR\n2 1 4400 4436 4396 XOR\n2 1 33357 4396 4399 XOR\n2 1 4494 4445 4397 XOR\n2 1 33355 4396 4395 XOR\n2 1 4491 4492 4490 AND\n2 1 4490 4498 4489 XOR\n2 1 4496 4490 4488 XOR\n2 1 4490 4449 4404 XOR\n2 1 4490 4507 4403 XOR\n2 1 4403 4504 4398 XOR\n2 1 4398 4399 4481 XOR\n2 1 4498 4488 4487 AND\n2 1 4487 4495 4485 XOR\n2 1 4487 4505 4458 XOR\n2 1 4458 4452 4479 XOR\n2 1 33351 4458 4441 XOR\n2 1 4441 4404 4486 XOR\n2 1 4493 4485 4484 AND\n2 1 4484 4454 4444 XOR\n2 1 4444 4446 4483 XOR\n2 1 4484 4508 4402 XOR\n2 1 4441 4402 4394 XOR\n2 1 4431 4394 4401 XOR\n2 1 4398 4401 4482 XOR\n2 1 4444 4397 4480 XOR\n2 1 4394 4395 4478 XOR\n2 1 4479 4516 4477 AND\n2 1 4486 4515 4476 AND\n2 1 4489 33350 4475 AND\n2 1 4475 4477 4457 XOR\n2 1 4480 4510 4474 AND\n2 1 4483 4522 4473 AND\n2 1 4493 4512 4472 AND\n2 1 4472 4473 4411 XOR\n2 1 4481 4513 4471 AND\n2 1 4478 4511 4470 AND\n2 1 4470 4473 4426 XOR\n1 1 4426 4423 INV\n2 1 4470 4471 4422 XOR\n2 1 4482 4514 4469 AND\n2 1 4479 4520 4468 AND\n2 1 4486 4517 4467 AND\n2 1 4489 4521 4466 AND\n2 1 4480 4525 4465 AND\n2 1 4465 4469 4442 XOR\n2 1 4474 4465 4427 XOR\n1 1 4442 4420 INV\n2 1 4483 4518 4464 AND\n2 1 4472 4464 4429 XOR\n2 1 4493 4519 4463 AND\n2 1 4420 4463 4419 XOR\n2 1 4419 4457 4415 XOR\n2 1 4481 4524 4462 AND\n2 1 4462 4415 4418 XOR\n2 1 4478 4526 4461 AND\n2 1 4461 4462 4456 XOR\n2 1 4467 4456 4438 XOR\n2 1 4468 4438 4439 XOR\n2 1 4476 4439 4443 XOR\n2 1 4477 4443 4448 XOR\n2 1 4429 4456 4425 XOR\n2 1 4457 4425 4428 XOR\n2 1 4427 4428 4530 XOR\n2 1 4420 4425 4424 XOR\n2 1 4423 4424 4529 XOR\n2 1 4448 4422 4528 XOR\n2 1 4438 4415 4414 XOR\n2 1 4475 4443 4412 XOR\n2 1 4411 4412 34828 XOR\n2 1 4482 4523 4460 AND\n2 1 4471 4460 4421 XOR\n1 1 4421 4417 INV\n2 1 4417 4418 4527 XOR\n2 1 33359 33361 4569 XOR\n2 1 33363 33365 4570 XOR\n2 1 33360 4569 4571 XOR\n2 1 33364 4571 4652 XOR\n2 1 33363 4571 4649 XOR\n2 1 33362 33364 4572 XOR\n2 1 33358 33364 4576 XOR\n2 1 4576 4571 4651 XOR\n2 1 33362 33365 4663 XOR\n2 1 4570 4576 4658 XOR\n2 1 4569 4663 4655 XOR\n2 1 33358 4655 4654 XOR\n2 1 33359 33360 4586 XOR\n2 1 4586 4658 4656 XOR\n2 1 4663 4586 4659 XOR\n2 1 33360 33362 4665 XOR\n2 1 4570 4665 4650 XOR\n2 1 33363 4576 4661 XOR\n2 1 33359 4661 4657 XOR\n2 1 33361 33360 4546 XOR\n2 1 4572 4570 4532 XOR\n2 1 4569 4532 4653 XOR\n2 1 4572 33363 4531 XOR\n2 1 33358 4531 4660 XOR\n2 1 33365 33359 4664 XOR\n2 1 33365 33360 4662 XOR\n2 1 4655 4659 4648 AND\n2 1 4648 4572 4575 XOR\n2 1 4656 4654 4647 AND\n2 1 4660 33358 4646 AND\n2 1 4664 4649 4645 AND\n2 1 4645 4570 4574 XOR\n2 1 4661 4657 4644 AND\n2 1 4658 4651 4643 AND\n2 1 4663 4652 4642 AND\n2 1 4642 4571 4573 XOR\n2 1 4575 4573 4579 XOR\n2 1 33365 4579 4584 XOR\n2 1 4665 4650 4641 AND\n2 1 4641 4647 4593 XOR\n2 1 4593 4584 4639 XOR\n2 1 4641 4642 4545 XOR\n2 1 4545 4546 4592 XOR\n2 1 4592 4574 4591 XOR\n2 1 4644 4591 4638 XOR\n2 1 4662 4653 4640 AND\n2 1 4640 4643 4594 XOR\n2 1 4640 4646 4598 XOR\n2 1 4598 4570 4585 XOR\n2 1 4593 4585 4636 XOR\n2 1 4641 4594 4588 XOR\n2 1 4574 4594 4548 XOR\n2 1 4548 4573 4637 XOR\n",
"2 1 4579 4598 4547 XOR\n2 1 33363 4547 4590 XOR\n2 1 4644 4588 4544 XOR\n2 1 33359 4544 4631 XOR\n2 1 4639 4638 4635 AND\n2 1 4635 4590 4630 XOR\n2 1 4635 4637 4634 XOR\n2 1 4636 4634 4633 AND\n2 1 4633 4590 4632 XOR\n2 1 4633 4645 4539 XOR\n2 1 4539 4575 4535 XOR\n2 1 33365 4535 4538 XOR\n2 1 4633 4584 4536 XOR\n2 1 33363 4535 4534 XOR\n2 1 4630 4631 4629 AND\n2 1 4629 4637 4628 XOR\n2 1 4635 4629 4627 XOR\n2 1 4629 4588 4543 XOR\n2 1 4629 4646 4542 XOR\n2 1 4542 4643 4537 XOR\n2 1 4537 4538 4620 XOR\n2 1 4637 4627 4626 AND\n2 1 4626 4634 4624 XOR\n2 1 4626 4644 4597 XOR\n2 1 4597 4591 4618 XOR\n2 1 33359 4597 4580 XOR\n2 1 4580 4543 4625 XOR\n2 1 4632 4624 4623 AND\n2 1 4623 4593 4583 XOR\n2 1 4583 4585 4622 XOR\n2 1 4623 4647 4541 XOR\n2 1 4580 4541 4533 XOR\n2 1 4570 4533 4540 XOR\n2 1 4537 4540 4621 XOR\n2 1 4583 4536 4619 XOR\n2 1 4533 4534 4617 XOR\n2 1 4618 4655 4616 AND\n2 1 4625 4654 4615 AND\n2 1 4628 33358 4614 AND\n2 1 4614 4616 4596 XOR\n2 1 4619 4649 4613 AND\n2 1 4622 4661 4612 AND\n2 1 4632 4651 4611 AND\n2 1 4611 4612 4550 XOR\n2 1 4620 4652 4610 AND\n2 1 4617 4650 4609 AND\n2 1 4609 4612 4565 XOR\n1 1 4565 4562 INV\n2 1 4609 4610 4561 XOR\n2 1 4621 4653 4608 AND\n2 1 4618 4659 4607 AND\n2 1 4625 4656 4606 AND\n2 1 4628 4660 4605 AND\n2 1 4619 4664 4604 AND\n2 1 4604 4608 4581 XOR\n2 1 4613 4604 4566 XOR\n1 1 4581 4559 INV\n2 1 4622 4657 4603 AND\n2 1 4611 4603 4568 XOR\n2 1 4632 4658 4602 AND\n2 1 4559 4602 4558 XOR\n2 1 4558 4596 4554 XOR\n2 1 4620 4663 4601 AND\n2 1 4601 4554 4557 XOR\n2 1 4617 4665 4600 AND\n2 1 4600 4601 4595 XOR\n2 1 4606 4595 4577 XOR\n2 1 4607 4577 4578 XOR\n2 1 4615 4578 4582 XOR\n2 1 4616 4582 4587 XOR\n2 1 4568 4595 4564 XOR\n2 1 4596 4564 4567 XOR\n2 1 4566 4567 4669 XOR\n2 1 4559 4564 4563 XOR\n2 1 4562 4563 4668 XOR\n2 1 4587 4561 4667 XOR\n2 1 4577 4554 4553 XOR\n2 1 4614 4582 4551 XOR\n2 1 4550 4551 34816 XOR\n2 1 4621 4662 4599 AND\n2 1 4610 4599 4560 XOR\n1 1 4560 4556 INV\n2 1 4556 4557 4666 XOR\n1 1 4668 34814 INV\n2 1 33367 33369 4708 XOR\n2 1 33371 33373 4709 XOR\n2 1 33368 4708 4710 XOR\n2 1 33372 4710 4791 XOR\n2 1 33371 4710 4788 XOR\n2 1 33370 33372 4711 XOR\n2 1 33366 33372 4715 XOR\n2 1 4715 4710 4790 XOR\n2 1 33370 33373 4802 XOR\n2 1 4709 4715 4797 XOR\n2 1 4708 4802 4794 XOR\n2 1 33366 4794 4793 XOR\n2 1 33367 33368 4725 XOR\n2 1 4725 4797 4795 XOR\n2 1 4802 4725 4798 XOR\n2 1 33368 33370 4804 XOR\n2 1 4709 4804 4789 XOR\n2 1 33371 4715 4800 XOR\n2 1 33367 4800 4796 XOR\n2 1 33369 33368 4685 XOR\n2 1 4711 4709 4671 XOR\n2 1 4708 4671 4792 XOR\n2 1 4711 33371 4670 XOR\n2 1 33366 4670 4799 XOR\n2 1 33373 33367 4803 XOR\n2 1 33373 33368 4801 XOR\n2 1 4794 4798 4787 AND\n2 1 4787 4711 4714 XOR\n2 1 4795 4793 4786 AND\n2 1 4799 33366 4785 AND\n2 1 4803 4788 4784 AND\n2 1 4784 4709 4713 XOR\n2 1 4800 4796 4783 AND\n2 1 4797 4790 4782 AND\n2 1 4802 4791 4781 AND\n2 1 4781 4710 4712 XOR\n2 1 4714 4712 4718 XOR\n2 1 33373 4718 4723 XOR\n2 1 4804 4789 4780 AND\n2 1 4780 4786 4732 XOR\n2 1 4732 4723 4778 XOR\n2 1 4780 4781 4684 XOR\n2 1 4684 4685 4731 XOR\n2 1 4731 4713 4730 XOR\n",
"2 1 4783 4730 4777 XOR\n2 1 4801 4792 4779 AND\n2 1 4779 4782 4733 XOR\n2 1 4779 4785 4737 XOR\n2 1 4737 4709 4724 XOR\n2 1 4732 4724 4775 XOR\n2 1 4780 4733 4727 XOR\n2 1 4713 4733 4687 XOR\n2 1 4687 4712 4776 XOR\n2 1 4718 4737 4686 XOR\n2 1 33371 4686 4729 XOR\n2 1 4783 4727 4683 XOR\n2 1 33367 4683 4770 XOR\n2 1 4778 4777 4774 AND\n2 1 4774 4729 4769 XOR\n2 1 4774 4776 4773 XOR\n2 1 4775 4773 4772 AND\n2 1 4772 4729 4771 XOR\n2 1 4772 4784 4678 XOR\n2 1 4678 4714 4674 XOR\n2 1 33373 4674 4677 XOR\n2 1 4772 4723 4675 XOR\n2 1 33371 4674 4673 XOR\n2 1 4769 4770 4768 AND\n2 1 4768 4776 4767 XOR\n2 1 4774 4768 4766 XOR\n2 1 4768 4727 4682 XOR\n2 1 4768 4785 4681 XOR\n2 1 4681 4782 4676 XOR\n2 1 4676 4677 4759 XOR\n2 1 4776 4766 4765 AND\n2 1 4765 4773 4763 XOR\n2 1 4765 4783 4736 XOR\n2 1 4736 4730 4757 XOR\n2 1 33367 4736 4719 XOR\n2 1 4719 4682 4764 XOR\n2 1 4771 4763 4762 AND\n2 1 4762 4732 4722 XOR\n2 1 4722 4724 4761 XOR\n2 1 4762 4786 4680 XOR\n2 1 4719 4680 4672 XOR\n2 1 4709 4672 4679 XOR\n2 1 4676 4679 4760 XOR\n2 1 4722 4675 4758 XOR\n2 1 4672 4673 4756 XOR\n2 1 4757 4794 4755 AND\n2 1 4764 4793 4754 AND\n2 1 4767 33366 4753 AND\n2 1 4753 4755 4735 XOR\n2 1 4758 4788 4752 AND\n2 1 4761 4800 4751 AND\n2 1 4771 4790 4750 AND\n2 1 4750 4751 4689 XOR\n2 1 4759 4791 4749 AND\n2 1 4756 4789 4748 AND\n2 1 4748 4751 4704 XOR\n1 1 4704 4701 INV\n2 1 4748 4749 4700 XOR\n2 1 4760 4792 4747 AND\n2 1 4757 4798 4746 AND\n2 1 4764 4795 4745 AND\n2 1 4767 4799 4744 AND\n2 1 4758 4803 4743 AND\n2 1 4743 4747 4720 XOR\n2 1 4752 4743 4705 XOR\n1 1 4720 4698 INV\n2 1 4761 4796 4742 AND\n2 1 4750 4742 4707 XOR\n2 1 4771 4797 4741 AND\n2 1 4698 4741 4697 XOR\n2 1 4697 4735 4693 XOR\n2 1 4759 4802 4740 AND\n2 1 4740 4693 4696 XOR\n2 1 4756 4804 4739 AND\n2 1 4739 4740 4734 XOR\n2 1 4745 4734 4716 XOR\n2 1 4746 4716 4717 XOR\n2 1 4754 4717 4721 XOR\n2 1 4755 4721 4726 XOR\n2 1 4707 4734 4703 XOR\n2 1 4735 4703 4706 XOR\n2 1 4705 4706 4808 XOR\n2 1 4698 4703 4702 XOR\n2 1 4701 4702 4807 XOR\n2 1 4726 4700 4806 XOR\n2 1 4716 4693 4692 XOR\n2 1 4753 4721 4690 XOR\n2 1 4689 4690 34802 XOR\n2 1 4760 4801 4738 AND\n2 1 4749 4738 4699 XOR\n1 1 4699 4695 INV\n2 1 4695 4696 4805 XOR\n1 1 4807 34800 INV\n2 1 33375 33377 4847 XOR\n2 1 33379 33381 4848 XOR\n2 1 33376 4847 4849 XOR\n2 1 33380 4849 4930 XOR\n2 1 33379 4849 4927 XOR\n2 1 33378 33380 4850 XOR\n2 1 33374 33380 4854 XOR\n2 1 4854 4849 4929 XOR\n2 1 33378 33381 4941 XOR\n2 1 4848 4854 4936 XOR\n2 1 4847 4941 4933 XOR\n2 1 33374 4933 4932 XOR\n2 1 33375 33376 4864 XOR\n2 1 4864 4936 4934 XOR\n2 1 4941 4864 4937 XOR\n2 1 33376 33378 4943 XOR\n2 1 4848 4943 4928 XOR\n2 1 33379 4854 4939 XOR\n2 1 33375 4939 4935 XOR\n2 1 33377 33376 4824 XOR\n2 1 4850 4848 4810 XOR\n2 1 4847 4810 4931 XOR\n2 1 4850 33379 4809 XOR\n2 1 33374 4809 4938 XOR\n2 1 33381 33375 4942 XOR\n2 1 33381 33376 4940 XOR\n2 1 4933 4937 4926 AND\n2 1 4926 4850 4853 XOR\n2 1 4934 4932 4925 AND\n2 1 4938 33374 4924 AND\n2 1 4942 4927 4923 AND\n2 1 4923 4848 4852 XOR\n2 1 4939 4935 4922 AND\n2 1 4936 4929 4921 AND\n2 1 4941 4930 4920 AND\n",
"2 1 4920 4849 4851 XOR\n2 1 4853 4851 4857 XOR\n2 1 33381 4857 4862 XOR\n2 1 4943 4928 4919 AND\n2 1 4919 4925 4871 XOR\n2 1 4871 4862 4917 XOR\n2 1 4919 4920 4823 XOR\n2 1 4823 4824 4870 XOR\n2 1 4870 4852 4869 XOR\n2 1 4922 4869 4916 XOR\n2 1 4940 4931 4918 AND\n2 1 4918 4921 4872 XOR\n2 1 4918 4924 4876 XOR\n2 1 4876 4848 4863 XOR\n2 1 4871 4863 4914 XOR\n2 1 4919 4872 4866 XOR\n2 1 4852 4872 4826 XOR\n2 1 4826 4851 4915 XOR\n2 1 4857 4876 4825 XOR\n2 1 33379 4825 4868 XOR\n2 1 4922 4866 4822 XOR\n2 1 33375 4822 4909 XOR\n2 1 4917 4916 4913 AND\n2 1 4913 4868 4908 XOR\n2 1 4913 4915 4912 XOR\n2 1 4914 4912 4911 AND\n2 1 4911 4868 4910 XOR\n2 1 4911 4923 4817 XOR\n2 1 4817 4853 4813 XOR\n2 1 33381 4813 4816 XOR\n2 1 4911 4862 4814 XOR\n2 1 33379 4813 4812 XOR\n2 1 4908 4909 4907 AND\n2 1 4907 4915 4906 XOR\n2 1 4913 4907 4905 XOR\n2 1 4907 4866 4821 XOR\n2 1 4907 4924 4820 XOR\n2 1 4820 4921 4815 XOR\n2 1 4815 4816 4898 XOR\n2 1 4915 4905 4904 AND\n2 1 4904 4912 4902 XOR\n2 1 4904 4922 4875 XOR\n2 1 4875 4869 4896 XOR\n2 1 33375 4875 4858 XOR\n2 1 4858 4821 4903 XOR\n2 1 4910 4902 4901 AND\n2 1 4901 4871 4861 XOR\n2 1 4861 4863 4900 XOR\n2 1 4901 4925 4819 XOR\n2 1 4858 4819 4811 XOR\n2 1 4848 4811 4818 XOR\n2 1 4815 4818 4899 XOR\n2 1 4861 4814 4897 XOR\n2 1 4811 4812 4895 XOR\n2 1 4896 4933 4894 AND\n2 1 4903 4932 4893 AND\n2 1 4906 33374 4892 AND\n2 1 4892 4894 4874 XOR\n2 1 4897 4927 4891 AND\n2 1 4900 4939 4890 AND\n2 1 4910 4929 4889 AND\n2 1 4889 4890 4828 XOR\n2 1 4898 4930 4888 AND\n2 1 4895 4928 4887 AND\n2 1 4887 4890 4843 XOR\n1 1 4843 4840 INV\n2 1 4887 4888 4839 XOR\n2 1 4899 4931 4886 AND\n2 1 4896 4937 4885 AND\n2 1 4903 4934 4884 AND\n2 1 4906 4938 4883 AND\n2 1 4897 4942 4882 AND\n2 1 4882 4886 4859 XOR\n2 1 4891 4882 4844 XOR\n1 1 4859 4837 INV\n2 1 4900 4935 4881 AND\n2 1 4889 4881 4846 XOR\n2 1 4910 4936 4880 AND\n2 1 4837 4880 4836 XOR\n2 1 4836 4874 4832 XOR\n2 1 4898 4941 4879 AND\n2 1 4879 4832 4835 XOR\n2 1 4895 4943 4878 AND\n2 1 4878 4879 4873 XOR\n2 1 4884 4873 4855 XOR\n2 1 4885 4855 4856 XOR\n2 1 4893 4856 4860 XOR\n2 1 4894 4860 4865 XOR\n2 1 4846 4873 4842 XOR\n2 1 4874 4842 4845 XOR\n2 1 4844 4845 4947 XOR\n2 1 4837 4842 4841 XOR\n2 1 4840 4841 4946 XOR\n2 1 4865 4839 4945 XOR\n2 1 4855 4832 4831 XOR\n2 1 4892 4860 4829 XOR\n2 1 4828 4829 34860 XOR\n2 1 4899 4940 4877 AND\n2 1 4888 4877 4838 XOR\n1 1 4838 4834 INV\n2 1 4834 4835 4944 XOR\n2 1 34811 34816 5009 XOR\n2 1 34802 34806 4984 XOR\n2 1 34791 34795 4974 XOR\n1 1 4974 5092 INV\n1 1 5009 5145 INV\n2 1 34802 34795 5252 XOR\n1 1 34816 5283 INV\n2 1 34820 5283 5271 XOR\n2 1 34852 34851 5291 XOR\n2 1 17 19 13434 XOR\n2 1 21 23 13435 XOR\n2 1 18 13434 13436 XOR\n2 1 22 13436 13518 XOR\n2 1 21 13436 13515 XOR\n2 1 20 22 13437 XOR\n2 1 16 22 13441 XOR\n2 1 13441 13436 13517 XOR\n2 1 20 23 13529 XOR\n2 1 13435 13441 13524 XOR\n2 1 13434 13529 13521 XOR\n2 1 16 13521 13520 XOR\n2 1 17 18 13452 XOR\n2 1 13452 13524 13522 XOR\n2 1 13529 13452 13525 XOR\n2 1 18 20 13531 XOR\n2 1 13435 13531 13516 XOR\n2 1 21 13441 13527 XOR\n",
"2 1 17 13527 13523 XOR\n2 1 19 18 13411 XOR\n2 1 13437 13435 13397 XOR\n2 1 13434 13397 13519 XOR\n2 1 13437 21 13396 XOR\n2 1 16 13396 13526 XOR\n2 1 23 17 13530 XOR\n2 1 23 18 13528 XOR\n2 1 13521 13525 13514 AND\n2 1 13514 13437 13440 XOR\n2 1 13522 13520 13513 AND\n2 1 13526 16 13512 AND\n2 1 13530 13515 13511 AND\n2 1 13511 13435 13439 XOR\n2 1 13527 13523 13510 AND\n2 1 13524 13517 13509 AND\n2 1 13529 13518 13508 AND\n2 1 13508 13436 13438 XOR\n2 1 13440 13438 13444 XOR\n2 1 23 13444 13450 XOR\n2 1 13531 13516 13507 AND\n2 1 13507 13513 13459 XOR\n2 1 13459 13450 13505 XOR\n2 1 13507 13508 13410 XOR\n2 1 13410 13411 13458 XOR\n2 1 13458 13439 13457 XOR\n2 1 13510 13457 13504 XOR\n2 1 13528 13519 13506 AND\n2 1 13506 13509 13460 XOR\n2 1 13506 13512 13464 XOR\n2 1 13464 13435 13451 XOR\n2 1 13459 13451 13502 XOR\n2 1 13507 13460 13454 XOR\n2 1 13439 13460 13413 XOR\n2 1 13413 13438 13503 XOR\n2 1 13444 13464 13412 XOR\n2 1 21 13412 13456 XOR\n2 1 13510 13454 13409 XOR\n2 1 17 13409 13497 XOR\n2 1 13505 13504 13501 AND\n2 1 13501 13456 13496 XOR\n2 1 13501 13503 13500 XOR\n2 1 13502 13500 13499 AND\n2 1 13499 13456 13498 XOR\n2 1 13499 13511 13404 XOR\n2 1 13404 13440 13400 XOR\n2 1 23 13400 13403 XOR\n2 1 13499 13450 13401 XOR\n2 1 21 13400 13399 XOR\n2 1 13496 13497 13495 AND\n2 1 13495 13503 13494 XOR\n2 1 13501 13495 13493 XOR\n2 1 13495 13454 13408 XOR\n2 1 13495 13512 13407 XOR\n2 1 13407 13509 13402 XOR\n2 1 13402 13403 13486 XOR\n2 1 13503 13493 13492 AND\n2 1 13492 13500 13490 XOR\n2 1 13492 13510 13463 XOR\n2 1 13463 13457 13484 XOR\n2 1 17 13463 13445 XOR\n2 1 13445 13408 13491 XOR\n2 1 13498 13490 13489 AND\n2 1 13489 13459 13449 XOR\n2 1 13449 13451 13488 XOR\n2 1 13489 13513 13406 XOR\n2 1 13445 13406 13398 XOR\n2 1 13435 13398 13405 XOR\n2 1 13402 13405 13487 XOR\n2 1 13449 13401 13485 XOR\n2 1 13398 13399 13483 XOR\n2 1 13484 13521 13482 AND\n2 1 13491 13520 13481 AND\n2 1 13494 16 13480 AND\n2 1 13480 13482 13462 XOR\n2 1 13485 13515 13479 AND\n2 1 13488 13527 13478 AND\n2 1 13478 13479 13447 XOR\n2 1 13498 13517 13477 AND\n2 1 13477 13478 13415 XOR\n2 1 13486 13518 13476 AND\n2 1 13483 13516 13475 AND\n2 1 13475 13447 13455 XOR\n2 1 13475 13478 13430 XOR\n1 1 13430 13427 INV\n2 1 13475 13476 13426 XOR\n2 1 13476 13455 13414 XOR\n2 1 13487 13519 13474 AND\n2 1 13484 13525 13473 AND\n2 1 13491 13522 13472 AND\n2 1 13494 13526 13471 AND\n2 1 13471 13455 13420 XOR\n1 1 13420 13417 INV\n2 1 13485 13530 13470 AND\n2 1 13470 13474 13446 XOR\n2 1 13479 13470 13431 XOR\n1 1 13446 13424 INV\n2 1 13488 13523 13469 AND\n2 1 13477 13469 13433 XOR\n2 1 13498 13524 13468 AND\n2 1 13424 13468 13423 XOR\n2 1 13423 13462 13419 XOR\n2 1 13486 13529 13467 AND\n2 1 13467 13419 13422 XOR\n2 1 13483 13531 13466 AND\n2 1 13466 13467 13461 XOR\n2 1 13472 13461 13442 XOR\n2 1 13473 13442 13443 XOR\n2 1 13481 13443 13448 XOR\n2 1 13482 13448 13453 XOR\n2 1 13447 13453 36499 XOR\n2 1 36499 124 387 XOR\n2 1 92 387 419 XOR\n2 1 60 419 451 XOR\n2 1 28 451 483 XOR\n2 1 13433 13461 13429 XOR\n2 1 13462 13429 13432 XOR\n2 1 13431 13432 13535 XOR\n2 1 13424 13429 13428 XOR\n2 1 13427 13428 13534 XOR\n2 1 13453 13426 13533 XOR\n2 1 13442 13419 13418 XOR\n2 1 13417 13418 36497 XOR\n2 1 36497 122 389 XOR\n2 1 90 389 421 XOR\n2 1 58 421 453 XOR\n2 1 26 453 485 XOR\n2 1 13480 13448 13416 XOR\n",
"2 1 13415 13416 36498 XOR\n2 1 36498 123 388 XOR\n2 1 91 388 420 XOR\n2 1 59 420 452 XOR\n2 1 27 452 484 XOR\n2 1 13443 13414 36502 XOR\n2 1 36502 127 384 XOR\n2 1 95 384 416 XOR\n2 1 63 416 448 XOR\n2 1 31 448 480 XOR\n2 1 13487 13528 13465 AND\n2 1 13476 13465 13425 XOR\n1 1 13425 13421 INV\n2 1 13421 13422 13532 XOR\n1 1 13535 36495 INV\n2 1 36495 120 1536 XOR\n1 1 1536 391 INV\n2 1 88 1536 1537 XOR\n1 1 1537 423 INV\n2 1 56 1537 1538 XOR\n1 1 1538 455 INV\n2 1 24 1538 1539 XOR\n1 1 1539 487 INV\n1 1 13534 36496 INV\n2 1 36496 121 390 XOR\n2 1 89 390 422 XOR\n2 1 57 422 454 XOR\n2 1 25 454 486 XOR\n1 1 13533 36501 INV\n2 1 36501 126 385 XOR\n2 1 94 385 417 XOR\n2 1 62 417 449 XOR\n2 1 30 449 481 XOR\n1 1 13532 36500 INV\n2 1 36500 125 386 XOR\n2 1 93 386 418 XOR\n2 1 61 418 450 XOR\n2 1 29 450 482 XOR\n2 1 33335 33337 15385 XOR\n2 1 33339 33341 15386 XOR\n2 1 33336 15385 15387 XOR\n2 1 33340 15387 15468 XOR\n2 1 33339 15387 15465 XOR\n2 1 33338 33340 15388 XOR\n2 1 33334 33340 15392 XOR\n2 1 15392 15387 15467 XOR\n2 1 33338 33341 15479 XOR\n2 1 15386 15392 15474 XOR\n2 1 15385 15479 15471 XOR\n2 1 33334 15471 15470 XOR\n2 1 33335 33336 15402 XOR\n2 1 15402 15474 15472 XOR\n2 1 15479 15402 15475 XOR\n2 1 33336 33338 15481 XOR\n2 1 15386 15481 15466 XOR\n2 1 33339 15392 15477 XOR\n2 1 33335 15477 15473 XOR\n2 1 33337 33336 15362 XOR\n2 1 15388 15386 15348 XOR\n2 1 15385 15348 15469 XOR\n2 1 15388 33339 15347 XOR\n2 1 33334 15347 15476 XOR\n2 1 33341 33335 15480 XOR\n2 1 33341 33336 15478 XOR\n2 1 15471 15475 15464 AND\n2 1 15464 15388 15391 XOR\n2 1 15472 15470 15463 AND\n2 1 15476 33334 15462 AND\n2 1 15480 15465 15461 AND\n2 1 15461 15386 15390 XOR\n2 1 15477 15473 15460 AND\n2 1 15474 15467 15459 AND\n2 1 15479 15468 15458 AND\n2 1 15458 15387 15389 XOR\n2 1 15391 15389 15395 XOR\n2 1 33341 15395 15400 XOR\n2 1 15481 15466 15457 AND\n2 1 15457 15463 15409 XOR\n2 1 15409 15400 15455 XOR\n2 1 15457 15458 15361 XOR\n2 1 15361 15362 15408 XOR\n2 1 15408 15390 15407 XOR\n2 1 15460 15407 15454 XOR\n2 1 15478 15469 15456 AND\n2 1 15456 15459 15410 XOR\n2 1 15456 15462 15414 XOR\n2 1 15414 15386 15401 XOR\n2 1 15409 15401 15452 XOR\n2 1 15457 15410 15404 XOR\n2 1 15390 15410 15364 XOR\n2 1 15364 15389 15453 XOR\n2 1 15395 15414 15363 XOR\n2 1 33339 15363 15406 XOR\n2 1 15460 15404 15360 XOR\n2 1 33335 15360 15447 XOR\n2 1 15455 15454 15451 AND\n2 1 15451 15406 15446 XOR\n2 1 15451 15453 15450 XOR\n2 1 15452 15450 15449 AND\n2 1 15449 15406 15448 XOR\n2 1 15449 15461 15355 XOR\n2 1 15355 15391 15351 XOR\n2 1 33341 15351 15354 XOR\n2 1 15449 15400 15352 XOR\n2 1 33339 15351 15350 XOR\n2 1 15446 15447 15445 AND\n2 1 15445 15453 15444 XOR\n2 1 15451 15445 15443 XOR\n2 1 15445 15404 15359 XOR\n2 1 15445 15462 15358 XOR\n2 1 15358 15459 15353 XOR\n2 1 15353 15354 15436 XOR\n2 1 15453 15443 15442 AND\n2 1 15442 15450 15440 XOR\n2 1 15442 15460 15413 XOR\n2 1 15413 15407 15434 XOR\n2 1 33335 15413 15396 XOR\n2 1 15396 15359 15441 XOR\n2 1 15448 15440 15439 AND\n2 1 15439 15409 15399 XOR\n2 1 15399 15401 15438 XOR\n2 1 15439 15463 15357 XOR\n2 1 15396 15357 15349 XOR\n2 1 15386 15349 15356 XOR\n2 1 15353 15356 15437 XOR\n2 1 15399 15352 15435 XOR\n2 1 15349 15350 15433 XOR\n2 1 15434 15471 15432 AND\n",
"2 1 15441 15470 15431 AND\n2 1 15444 33334 15430 AND\n2 1 15430 15432 15412 XOR\n2 1 15435 15465 15429 AND\n2 1 15438 15477 15428 AND\n2 1 15448 15467 15427 AND\n2 1 15427 15428 15366 XOR\n2 1 15436 15468 15426 AND\n2 1 15433 15466 15425 AND\n2 1 15425 15428 15381 XOR\n1 1 15381 15378 INV\n2 1 15425 15426 15377 XOR\n2 1 15437 15469 15424 AND\n2 1 15434 15475 15423 AND\n2 1 15441 15472 15422 AND\n2 1 15444 15476 15421 AND\n2 1 15435 15480 15420 AND\n2 1 15420 15424 15397 XOR\n2 1 15429 15420 15382 XOR\n1 1 15397 15375 INV\n2 1 15438 15473 15419 AND\n2 1 15427 15419 15384 XOR\n2 1 15448 15474 15418 AND\n2 1 15375 15418 15374 XOR\n2 1 15374 15412 15370 XOR\n2 1 15436 15479 15417 AND\n2 1 15417 15370 15373 XOR\n2 1 15433 15481 15416 AND\n2 1 15416 15417 15411 XOR\n2 1 15422 15411 15393 XOR\n2 1 15423 15393 15394 XOR\n2 1 15431 15394 15398 XOR\n2 1 15432 15398 15403 XOR\n2 1 15384 15411 15380 XOR\n2 1 15412 15380 15383 XOR\n2 1 15382 15383 15485 XOR\n2 1 15375 15380 15379 XOR\n2 1 15378 15379 15484 XOR\n2 1 15403 15377 15483 XOR\n2 1 15393 15370 15369 XOR\n2 1 15430 15398 15367 XOR\n2 1 15366 15367 34856 XOR\n2 1 34852 34856 5025 XOR\n2 1 15437 15478 15415 AND\n2 1 15426 15415 15376 XOR\n1 1 15376 15372 INV\n2 1 15372 15373 15482 XOR\n2 1 33303 33305 15524 XOR\n2 1 33307 33309 15525 XOR\n2 1 33304 15524 15526 XOR\n2 1 33308 15526 15607 XOR\n2 1 33307 15526 15604 XOR\n2 1 33306 33308 15527 XOR\n2 1 33302 33308 15531 XOR\n2 1 15531 15526 15606 XOR\n2 1 33306 33309 15618 XOR\n2 1 15525 15531 15613 XOR\n2 1 15524 15618 15610 XOR\n2 1 33302 15610 15609 XOR\n2 1 33303 33304 15541 XOR\n2 1 15541 15613 15611 XOR\n2 1 15618 15541 15614 XOR\n2 1 33304 33306 15620 XOR\n2 1 15525 15620 15605 XOR\n2 1 33307 15531 15616 XOR\n2 1 33303 15616 15612 XOR\n2 1 33305 33304 15501 XOR\n2 1 15527 15525 15487 XOR\n2 1 15524 15487 15608 XOR\n2 1 15527 33307 15486 XOR\n2 1 33302 15486 15615 XOR\n2 1 33309 33303 15619 XOR\n2 1 33309 33304 15617 XOR\n2 1 15610 15614 15603 AND\n2 1 15603 15527 15530 XOR\n2 1 15611 15609 15602 AND\n2 1 15615 33302 15601 AND\n2 1 15619 15604 15600 AND\n2 1 15600 15525 15529 XOR\n2 1 15616 15612 15599 AND\n2 1 15613 15606 15598 AND\n2 1 15618 15607 15597 AND\n2 1 15597 15526 15528 XOR\n2 1 15530 15528 15534 XOR\n2 1 33309 15534 15539 XOR\n2 1 15620 15605 15596 AND\n2 1 15596 15602 15548 XOR\n2 1 15548 15539 15594 XOR\n2 1 15596 15597 15500 XOR\n2 1 15500 15501 15547 XOR\n2 1 15547 15529 15546 XOR\n2 1 15599 15546 15593 XOR\n2 1 15617 15608 15595 AND\n2 1 15595 15598 15549 XOR\n2 1 15595 15601 15553 XOR\n2 1 15553 15525 15540 XOR\n2 1 15548 15540 15591 XOR\n2 1 15596 15549 15543 XOR\n2 1 15529 15549 15503 XOR\n2 1 15503 15528 15592 XOR\n2 1 15534 15553 15502 XOR\n2 1 33307 15502 15545 XOR\n2 1 15599 15543 15499 XOR\n2 1 33303 15499 15586 XOR\n2 1 15594 15593 15590 AND\n2 1 15590 15545 15585 XOR\n2 1 15590 15592 15589 XOR\n2 1 15591 15589 15588 AND\n2 1 15588 15545 15587 XOR\n2 1 15588 15600 15494 XOR\n2 1 15494 15530 15490 XOR\n2 1 33309 15490 15493 XOR\n2 1 15588 15539 15491 XOR\n2 1 33307 15490 15489 XOR\n2 1 15585 15586 15584 AND\n2 1 15584 15592 15583 XOR\n2 1 15590 15584 15582 XOR\n2 1 15584 15543 15498 XOR\n2 1 15584 15601 15497 XOR\n2 1 15497 15598 15492 XOR\n2 1 15492 15493 15575 XOR\n2 1 15592 15582 15581 AND\n2 1 15581 15589 15579 XOR\n2 1 15581 15599 15552 XOR\n2 1 15552 15546 15573 XOR\n2 1 33303 15552 15535 XOR\n2 1 15535 15498 15580 XOR\n2 1 15587 15579 15578 AND\n",
"2 1 15578 15548 15538 XOR\n2 1 15538 15540 15577 XOR\n2 1 15578 15602 15496 XOR\n2 1 15535 15496 15488 XOR\n2 1 15525 15488 15495 XOR\n2 1 15492 15495 15576 XOR\n2 1 15538 15491 15574 XOR\n2 1 15488 15489 15572 XOR\n2 1 15573 15610 15571 AND\n2 1 15580 15609 15570 AND\n2 1 15583 33302 15569 AND\n2 1 15569 15571 15551 XOR\n2 1 15574 15604 15568 AND\n2 1 15577 15616 15567 AND\n2 1 15587 15606 15566 AND\n2 1 15566 15567 15505 XOR\n2 1 15575 15607 15565 AND\n2 1 15572 15605 15564 AND\n2 1 15564 15567 15520 XOR\n1 1 15520 15517 INV\n2 1 15564 15565 15516 XOR\n2 1 15576 15608 15563 AND\n2 1 15573 15614 15562 AND\n2 1 15580 15611 15561 AND\n2 1 15583 15615 15560 AND\n2 1 15574 15619 15559 AND\n2 1 15559 15563 15536 XOR\n2 1 15568 15559 15521 XOR\n1 1 15536 15514 INV\n2 1 15577 15612 15558 AND\n2 1 15566 15558 15523 XOR\n2 1 15587 15613 15557 AND\n2 1 15514 15557 15513 XOR\n2 1 15513 15551 15509 XOR\n2 1 15575 15618 15556 AND\n2 1 15556 15509 15512 XOR\n2 1 15572 15620 15555 AND\n2 1 15555 15556 15550 XOR\n2 1 15561 15550 15532 XOR\n2 1 15562 15532 15533 XOR\n2 1 15570 15533 15537 XOR\n2 1 15571 15537 15542 XOR\n2 1 15523 15550 15519 XOR\n2 1 15551 15519 15522 XOR\n2 1 15521 15522 15624 XOR\n2 1 15514 15519 15518 XOR\n2 1 15517 15518 15623 XOR\n2 1 15542 15516 15622 XOR\n2 1 15532 15509 15508 XOR\n2 1 15569 15537 15506 XOR\n2 1 15505 15506 34839 XOR\n2 1 34839 34843 5003 XOR\n2 1 15576 15617 15554 AND\n2 1 15565 15554 15515 XOR\n1 1 15515 15511 INV\n2 1 15511 15512 15621 XOR\n2 1 9 11 16219 XOR\n2 1 13 15 16220 XOR\n2 1 10 16219 16221 XOR\n2 1 14 16221 16302 XOR\n2 1 13 16221 16299 XOR\n2 1 12 14 16222 XOR\n2 1 8 14 16226 XOR\n2 1 16226 16221 16301 XOR\n2 1 12 15 16313 XOR\n2 1 16220 16226 16308 XOR\n2 1 16219 16313 16305 XOR\n2 1 8 16305 16304 XOR\n2 1 9 10 16236 XOR\n2 1 16236 16308 16306 XOR\n2 1 16313 16236 16309 XOR\n2 1 10 12 16315 XOR\n2 1 16220 16315 16300 XOR\n2 1 13 16226 16311 XOR\n2 1 9 16311 16307 XOR\n2 1 11 10 16196 XOR\n2 1 16222 16220 16182 XOR\n2 1 16219 16182 16303 XOR\n2 1 16222 13 16181 XOR\n2 1 8 16181 16310 XOR\n2 1 15 9 16314 XOR\n2 1 15 10 16312 XOR\n2 1 16305 16309 16298 AND\n2 1 16298 16222 16225 XOR\n2 1 16306 16304 16297 AND\n2 1 16310 8 16296 AND\n2 1 16314 16299 16295 AND\n2 1 16295 16220 16224 XOR\n2 1 16311 16307 16294 AND\n2 1 16308 16301 16293 AND\n2 1 16313 16302 16292 AND\n2 1 16292 16221 16223 XOR\n2 1 16225 16223 16229 XOR\n2 1 15 16229 16234 XOR\n2 1 16315 16300 16291 AND\n2 1 16291 16297 16243 XOR\n2 1 16243 16234 16289 XOR\n2 1 16291 16292 16195 XOR\n2 1 16195 16196 16242 XOR\n2 1 16242 16224 16241 XOR\n2 1 16294 16241 16288 XOR\n2 1 16312 16303 16290 AND\n2 1 16290 16293 16244 XOR\n2 1 16290 16296 16248 XOR\n2 1 16248 16220 16235 XOR\n2 1 16243 16235 16286 XOR\n2 1 16291 16244 16238 XOR\n2 1 16224 16244 16198 XOR\n2 1 16198 16223 16287 XOR\n2 1 16229 16248 16197 XOR\n2 1 13 16197 16240 XOR\n2 1 16294 16238 16194 XOR\n2 1 9 16194 16281 XOR\n2 1 16289 16288 16285 AND\n2 1 16285 16240 16280 XOR\n2 1 16285 16287 16284 XOR\n2 1 16286 16284 16283 AND\n2 1 16283 16240 16282 XOR\n2 1 16283 16295 16189 XOR\n2 1 16189 16225 16185 XOR\n2 1 15 16185 16188 XOR\n2 1 16283 16234 16186 XOR\n2 1 13 16185 16184 XOR\n2 1 16280 16281 16279 AND\n2 1 16279 16287 16278 XOR\n2 1 16285 16279 16277 XOR\n2 1 16279 16238 16193 XOR\n2 1 16279 16296 16192 XOR\n",
"2 1 16192 16293 16187 XOR\n2 1 16187 16188 16270 XOR\n2 1 16287 16277 16276 AND\n2 1 16276 16284 16274 XOR\n2 1 16276 16294 16247 XOR\n2 1 16247 16241 16268 XOR\n2 1 9 16247 16230 XOR\n2 1 16230 16193 16275 XOR\n2 1 16282 16274 16273 AND\n2 1 16273 16243 16233 XOR\n2 1 16233 16235 16272 XOR\n2 1 16273 16297 16191 XOR\n2 1 16230 16191 16183 XOR\n2 1 16220 16183 16190 XOR\n2 1 16187 16190 16271 XOR\n2 1 16233 16186 16269 XOR\n2 1 16183 16184 16267 XOR\n2 1 16268 16305 16266 AND\n2 1 16275 16304 16265 AND\n2 1 16278 8 16264 AND\n2 1 16264 16266 16246 XOR\n2 1 16269 16299 16263 AND\n2 1 16272 16311 16262 AND\n2 1 16282 16301 16261 AND\n2 1 16261 16262 16200 XOR\n2 1 16270 16302 16260 AND\n2 1 16267 16300 16259 AND\n2 1 16259 16262 16215 XOR\n1 1 16215 16212 INV\n2 1 16259 16260 16211 XOR\n2 1 16271 16303 16258 AND\n2 1 16268 16309 16257 AND\n2 1 16275 16306 16256 AND\n2 1 16278 16310 16255 AND\n2 1 16269 16314 16254 AND\n2 1 16254 16258 16231 XOR\n2 1 16263 16254 16216 XOR\n1 1 16231 16209 INV\n2 1 16272 16307 16253 AND\n2 1 16261 16253 16218 XOR\n2 1 16282 16308 16252 AND\n2 1 16209 16252 16208 XOR\n2 1 16208 16246 16204 XOR\n2 1 16270 16313 16251 AND\n2 1 16251 16204 16207 XOR\n2 1 16267 16315 16250 AND\n2 1 16250 16251 16245 XOR\n2 1 16256 16245 16227 XOR\n2 1 16257 16227 16228 XOR\n2 1 16265 16228 16232 XOR\n2 1 16266 16232 16237 XOR\n2 1 16218 16245 16214 XOR\n2 1 16246 16214 16217 XOR\n2 1 16216 16217 16319 XOR\n2 1 16209 16214 16213 XOR\n2 1 16212 16213 16318 XOR\n2 1 16237 16211 16317 XOR\n2 1 16227 16204 16203 XOR\n2 1 16264 16232 16201 XOR\n2 1 16200 16201 36490 XOR\n2 1 36490 115 396 XOR\n2 1 83 396 428 XOR\n2 1 51 428 460 XOR\n2 1 19 460 492 XOR\n2 1 16271 16312 16249 AND\n2 1 16260 16249 16210 XOR\n1 1 16210 16206 INV\n2 1 16206 16207 16316 XOR\n1 1 16319 36487 INV\n2 1 36487 112 399 XOR\n2 1 80 399 431 XOR\n2 1 48 431 463 XOR\n2 1 16 463 495 XOR\n1 1 16318 36488 INV\n2 1 36488 113 398 XOR\n2 1 81 398 430 XOR\n2 1 49 430 462 XOR\n2 1 17 462 494 XOR\n2 1 494 492 13294 XOR\n1 1 16317 36493 INV\n2 1 36493 118 393 XOR\n2 1 86 393 425 XOR\n2 1 54 425 457 XOR\n2 1 22 457 489 XOR\n2 1 495 489 13301 XOR\n1 1 16316 36492 INV\n2 1 36492 117 394 XOR\n2 1 85 394 426 XOR\n2 1 53 426 458 XOR\n2 1 21 458 490 XOR\n2 1 490 13301 13387 XOR\n2 1 494 13387 13383 XOR\n2 1 13387 13383 13370 AND\n2 1 33311 33313 21084 XOR\n2 1 33315 33317 21085 XOR\n2 1 33312 21084 21086 XOR\n2 1 33316 21086 21167 XOR\n2 1 33315 21086 21164 XOR\n2 1 33314 33316 21087 XOR\n2 1 33310 33316 21091 XOR\n2 1 21091 21086 21166 XOR\n2 1 33314 33317 21178 XOR\n2 1 21085 21091 21173 XOR\n2 1 21084 21178 21170 XOR\n2 1 33310 21170 21169 XOR\n2 1 33311 33312 21101 XOR\n2 1 21101 21173 21171 XOR\n2 1 21178 21101 21174 XOR\n2 1 33312 33314 21180 XOR\n2 1 21085 21180 21165 XOR\n2 1 33315 21091 21176 XOR\n2 1 33311 21176 21172 XOR\n2 1 33313 33312 21061 XOR\n2 1 21087 21085 21047 XOR\n2 1 21084 21047 21168 XOR\n2 1 21087 33315 21046 XOR\n2 1 33310 21046 21175 XOR\n2 1 33317 33311 21179 XOR\n2 1 33317 33312 21177 XOR\n2 1 21170 21174 21163 AND\n2 1 21163 21087 21090 XOR\n2 1 21171 21169 21162 AND\n2 1 21175 33310 21161 AND\n2 1 21179 21164 21160 AND\n2 1 21160 21085 21089 XOR\n2 1 21176 21172 21159 AND\n2 1 21173 21166 21158 AND\n2 1 21178 21167 21157 AND\n",
"2 1 21157 21086 21088 XOR\n2 1 21090 21088 21094 XOR\n2 1 33317 21094 21099 XOR\n2 1 21180 21165 21156 AND\n2 1 21156 21162 21108 XOR\n2 1 21108 21099 21154 XOR\n2 1 21156 21157 21060 XOR\n2 1 21060 21061 21107 XOR\n2 1 21107 21089 21106 XOR\n2 1 21159 21106 21153 XOR\n2 1 21177 21168 21155 AND\n2 1 21155 21158 21109 XOR\n2 1 21155 21161 21113 XOR\n2 1 21113 21085 21100 XOR\n2 1 21108 21100 21151 XOR\n2 1 21156 21109 21103 XOR\n2 1 21089 21109 21063 XOR\n2 1 21063 21088 21152 XOR\n2 1 21094 21113 21062 XOR\n2 1 33315 21062 21105 XOR\n2 1 21159 21103 21059 XOR\n2 1 33311 21059 21146 XOR\n2 1 21154 21153 21150 AND\n2 1 21150 21105 21145 XOR\n2 1 21150 21152 21149 XOR\n2 1 21151 21149 21148 AND\n2 1 21148 21105 21147 XOR\n2 1 21148 21160 21054 XOR\n2 1 21054 21090 21050 XOR\n2 1 33317 21050 21053 XOR\n2 1 21148 21099 21051 XOR\n2 1 33315 21050 21049 XOR\n2 1 21145 21146 21144 AND\n2 1 21144 21152 21143 XOR\n2 1 21150 21144 21142 XOR\n2 1 21144 21103 21058 XOR\n2 1 21144 21161 21057 XOR\n2 1 21057 21158 21052 XOR\n2 1 21052 21053 21135 XOR\n2 1 21152 21142 21141 AND\n2 1 21141 21149 21139 XOR\n2 1 21141 21159 21112 XOR\n2 1 21112 21106 21133 XOR\n2 1 33311 21112 21095 XOR\n2 1 21095 21058 21140 XOR\n2 1 21147 21139 21138 AND\n2 1 21138 21108 21098 XOR\n2 1 21098 21100 21137 XOR\n2 1 21138 21162 21056 XOR\n2 1 21095 21056 21048 XOR\n2 1 21085 21048 21055 XOR\n2 1 21052 21055 21136 XOR\n2 1 21098 21051 21134 XOR\n2 1 21048 21049 21132 XOR\n2 1 21133 21170 21131 AND\n2 1 21140 21169 21130 AND\n2 1 21143 33310 21129 AND\n2 1 21129 21131 21111 XOR\n2 1 21134 21164 21128 AND\n2 1 21137 21176 21127 AND\n2 1 21147 21166 21126 AND\n2 1 21126 21127 21065 XOR\n2 1 21135 21167 21125 AND\n2 1 21132 21165 21124 AND\n2 1 21124 21127 21080 XOR\n1 1 21080 21077 INV\n2 1 21124 21125 21076 XOR\n2 1 21136 21168 21123 AND\n2 1 21133 21174 21122 AND\n2 1 21140 21171 21121 AND\n2 1 21143 21175 21120 AND\n2 1 21134 21179 21119 AND\n2 1 21119 21123 21096 XOR\n2 1 21128 21119 21081 XOR\n1 1 21096 21074 INV\n2 1 21137 21172 21118 AND\n2 1 21126 21118 21083 XOR\n2 1 21147 21173 21117 AND\n2 1 21074 21117 21073 XOR\n2 1 21073 21111 21069 XOR\n2 1 21135 21178 21116 AND\n2 1 21116 21069 21072 XOR\n2 1 21132 21180 21115 AND\n2 1 21115 21116 21110 XOR\n2 1 21121 21110 21092 XOR\n2 1 21122 21092 21093 XOR\n2 1 21130 21093 21097 XOR\n2 1 21131 21097 21102 XOR\n2 1 21083 21110 21079 XOR\n2 1 21111 21079 21082 XOR\n2 1 21081 21082 21184 XOR\n2 1 21074 21079 21078 XOR\n2 1 21077 21078 21183 XOR\n2 1 21102 21076 21182 XOR\n2 1 21092 21069 21068 XOR\n2 1 21129 21097 21066 XOR\n2 1 21065 21066 34824 XOR\n2 1 34820 34824 5016 XOR\n2 1 21136 21177 21114 AND\n2 1 21125 21114 21075 XOR\n1 1 21075 21071 INV\n2 1 21071 21072 21181 XOR\n2 1 486 484 24705 XOR\n2 1 482 480 24706 XOR\n2 1 485 24705 24707 XOR\n2 1 481 24707 24788 XOR\n2 1 482 24707 24785 XOR\n2 1 483 481 24708 XOR\n2 1 487 481 24712 XOR\n2 1 24712 24707 24787 XOR\n2 1 483 480 24799 XOR\n2 1 24706 24712 24794 XOR\n2 1 24705 24799 24791 XOR\n2 1 487 24791 24790 XOR\n2 1 486 485 24722 XOR\n2 1 24722 24794 24792 XOR\n2 1 24799 24722 24795 XOR\n2 1 485 483 24801 XOR\n2 1 24706 24801 24786 XOR\n2 1 482 24712 24797 XOR\n2 1 486 24797 24793 XOR\n2 1 484 485 24682 XOR\n2 1 24708 24706 24668 XOR\n2 1 24705 24668 24789 XOR\n2 1 24708 482 24667 XOR\n2 1 487 24667 24796 XOR\n2 1 480 486 24800 XOR\n2 1 480 485 24798 XOR\n",
"2 1 24791 24795 24784 AND\n2 1 24784 24708 24711 XOR\n2 1 24792 24790 24783 AND\n2 1 24796 487 24782 AND\n2 1 24800 24785 24781 AND\n2 1 24781 24706 24710 XOR\n2 1 24797 24793 24780 AND\n2 1 24794 24787 24779 AND\n2 1 24799 24788 24778 AND\n2 1 24778 24707 24709 XOR\n2 1 24711 24709 24715 XOR\n2 1 480 24715 24720 XOR\n2 1 24801 24786 24777 AND\n2 1 24777 24783 24729 XOR\n2 1 24729 24720 24775 XOR\n2 1 24777 24778 24681 XOR\n2 1 24681 24682 24728 XOR\n2 1 24728 24710 24727 XOR\n2 1 24780 24727 24774 XOR\n2 1 24798 24789 24776 AND\n2 1 24776 24779 24730 XOR\n2 1 24776 24782 24734 XOR\n2 1 24734 24706 24721 XOR\n2 1 24729 24721 24772 XOR\n2 1 24777 24730 24724 XOR\n2 1 24710 24730 24684 XOR\n2 1 24684 24709 24773 XOR\n2 1 24715 24734 24683 XOR\n2 1 482 24683 24726 XOR\n2 1 24780 24724 24680 XOR\n2 1 486 24680 24767 XOR\n2 1 24775 24774 24771 AND\n2 1 24771 24726 24766 XOR\n2 1 24771 24773 24770 XOR\n2 1 24772 24770 24769 AND\n2 1 24769 24726 24768 XOR\n2 1 24769 24781 24675 XOR\n2 1 24675 24711 24671 XOR\n2 1 480 24671 24674 XOR\n2 1 24769 24720 24672 XOR\n2 1 482 24671 24670 XOR\n2 1 24766 24767 24765 AND\n2 1 24765 24773 24764 XOR\n2 1 24771 24765 24763 XOR\n2 1 24765 24724 24679 XOR\n2 1 24765 24782 24678 XOR\n2 1 24678 24779 24673 XOR\n2 1 24673 24674 24756 XOR\n2 1 24773 24763 24762 AND\n2 1 24762 24770 24760 XOR\n2 1 24762 24780 24733 XOR\n2 1 24733 24727 24754 XOR\n2 1 486 24733 24716 XOR\n2 1 24716 24679 24761 XOR\n2 1 24768 24760 24759 AND\n2 1 24759 24729 24719 XOR\n2 1 24719 24721 24758 XOR\n2 1 24759 24783 24677 XOR\n2 1 24716 24677 24669 XOR\n2 1 24706 24669 24676 XOR\n2 1 24673 24676 24757 XOR\n2 1 24719 24672 24755 XOR\n2 1 24669 24670 24753 XOR\n2 1 24754 24791 24752 AND\n2 1 24761 24790 24751 AND\n2 1 24764 487 24750 AND\n2 1 24750 24752 24732 XOR\n2 1 24755 24785 24749 AND\n2 1 24758 24797 24748 AND\n2 1 24768 24787 24747 AND\n2 1 24747 24748 24686 XOR\n2 1 24756 24788 24746 AND\n2 1 24753 24786 24745 AND\n2 1 24745 24748 24701 XOR\n1 1 24701 24698 INV\n2 1 24745 24746 24697 XOR\n2 1 24757 24789 24744 AND\n2 1 24754 24795 24743 AND\n2 1 24761 24792 24742 AND\n2 1 24764 24796 24741 AND\n2 1 24755 24800 24740 AND\n2 1 24740 24744 24717 XOR\n2 1 24749 24740 24702 XOR\n1 1 24717 24695 INV\n2 1 24758 24793 24739 AND\n2 1 24747 24739 24704 XOR\n2 1 24768 24794 24738 AND\n2 1 24695 24738 24694 XOR\n2 1 24694 24732 24690 XOR\n2 1 24756 24799 24737 AND\n2 1 24737 24690 24693 XOR\n2 1 24753 24801 24736 AND\n2 1 24736 24737 24731 XOR\n2 1 24742 24731 24713 XOR\n2 1 24743 24713 24714 XOR\n2 1 24751 24714 24718 XOR\n2 1 24752 24718 24723 XOR\n2 1 24704 24731 24700 XOR\n2 1 24732 24700 24703 XOR\n2 1 24702 24703 24805 XOR\n2 1 24695 24700 24699 XOR\n2 1 24698 24699 24804 XOR\n2 1 24723 24697 24803 XOR\n2 1 24713 24690 24689 XOR\n2 1 24750 24718 24687 XOR\n2 1 24686 24687 36506 XOR\n2 1 24757 24798 24735 AND\n2 1 24746 24735 24696 XOR\n1 1 24696 24692 INV\n2 1 24692 24693 24802 XOR\n1 1 24805 36503 INV\n1 1 24804 36504 INV\n1 1 24803 36509 INV\n1 1 24802 36508 INV\n2 1 25 27 24844 XOR\n2 1 29 31 24845 XOR\n2 1 26 24844 24846 XOR\n2 1 30 24846 24927 XOR\n2 1 29 24846 24924 XOR\n2 1 28 30 24847 XOR\n2 1 24 30 24851 XOR\n2 1 24851 24846 24926 XOR\n2 1 28 31 24938 XOR\n2 1 24845 24851 24933 XOR\n2 1 24844 24938 24930 XOR\n2 1 24 24930 24929 XOR\n2 1 25 26 24861 XOR\n2 1 24861 24933 24931 XOR\n",
"2 1 24938 24861 24934 XOR\n2 1 26 28 24940 XOR\n2 1 24845 24940 24925 XOR\n2 1 29 24851 24936 XOR\n2 1 25 24936 24932 XOR\n2 1 27 26 24821 XOR\n2 1 24847 24845 24807 XOR\n2 1 24844 24807 24928 XOR\n2 1 24847 29 24806 XOR\n2 1 24 24806 24935 XOR\n2 1 31 25 24939 XOR\n2 1 31 26 24937 XOR\n2 1 24930 24934 24923 AND\n2 1 24923 24847 24850 XOR\n2 1 24931 24929 24922 AND\n2 1 24935 24 24921 AND\n2 1 24939 24924 24920 AND\n2 1 24920 24845 24849 XOR\n2 1 24936 24932 24919 AND\n2 1 24933 24926 24918 AND\n2 1 24938 24927 24917 AND\n2 1 24917 24846 24848 XOR\n2 1 24850 24848 24854 XOR\n2 1 31 24854 24859 XOR\n2 1 24940 24925 24916 AND\n2 1 24916 24922 24868 XOR\n2 1 24868 24859 24914 XOR\n2 1 24916 24917 24820 XOR\n2 1 24820 24821 24867 XOR\n2 1 24867 24849 24866 XOR\n2 1 24919 24866 24913 XOR\n2 1 24937 24928 24915 AND\n2 1 24915 24918 24869 XOR\n2 1 24915 24921 24873 XOR\n2 1 24873 24845 24860 XOR\n2 1 24868 24860 24911 XOR\n2 1 24916 24869 24863 XOR\n2 1 24849 24869 24823 XOR\n2 1 24823 24848 24912 XOR\n2 1 24854 24873 24822 XOR\n2 1 29 24822 24865 XOR\n2 1 24919 24863 24819 XOR\n2 1 25 24819 24906 XOR\n2 1 24914 24913 24910 AND\n2 1 24910 24865 24905 XOR\n2 1 24910 24912 24909 XOR\n2 1 24911 24909 24908 AND\n2 1 24908 24865 24907 XOR\n2 1 24908 24920 24814 XOR\n2 1 24814 24850 24810 XOR\n2 1 31 24810 24813 XOR\n2 1 24908 24859 24811 XOR\n2 1 29 24810 24809 XOR\n2 1 24905 24906 24904 AND\n2 1 24904 24912 24903 XOR\n2 1 24910 24904 24902 XOR\n2 1 24904 24863 24818 XOR\n2 1 24904 24921 24817 XOR\n2 1 24817 24918 24812 XOR\n2 1 24812 24813 24895 XOR\n2 1 24912 24902 24901 AND\n2 1 24901 24909 24899 XOR\n2 1 24901 24919 24872 XOR\n2 1 24872 24866 24893 XOR\n2 1 25 24872 24855 XOR\n2 1 24855 24818 24900 XOR\n2 1 24907 24899 24898 AND\n2 1 24898 24868 24858 XOR\n2 1 24858 24860 24897 XOR\n2 1 24898 24922 24816 XOR\n2 1 24855 24816 24808 XOR\n2 1 24845 24808 24815 XOR\n2 1 24812 24815 24896 XOR\n2 1 24858 24811 24894 XOR\n2 1 24808 24809 24892 XOR\n2 1 24893 24930 24891 AND\n2 1 24900 24929 24890 AND\n2 1 24903 24 24889 AND\n2 1 24889 24891 24871 XOR\n2 1 24894 24924 24888 AND\n2 1 24897 24936 24887 AND\n2 1 24907 24926 24886 AND\n2 1 24886 24887 24825 XOR\n2 1 24895 24927 24885 AND\n2 1 24892 24925 24884 AND\n2 1 24884 24887 24840 XOR\n1 1 24840 24837 INV\n2 1 24884 24885 24836 XOR\n2 1 24896 24928 24883 AND\n2 1 24893 24934 24882 AND\n2 1 24900 24931 24881 AND\n2 1 24903 24935 24880 AND\n2 1 24894 24939 24879 AND\n2 1 24879 24883 24856 XOR\n2 1 24888 24879 24841 XOR\n1 1 24856 24834 INV\n2 1 24897 24932 24878 AND\n2 1 24886 24878 24843 XOR\n2 1 24907 24933 24877 AND\n2 1 24834 24877 24833 XOR\n2 1 24833 24871 24829 XOR\n2 1 24895 24938 24876 AND\n2 1 24876 24829 24832 XOR\n2 1 24892 24940 24875 AND\n2 1 24875 24876 24870 XOR\n2 1 24881 24870 24852 XOR\n2 1 24882 24852 24853 XOR\n2 1 24890 24853 24857 XOR\n2 1 24891 24857 24862 XOR\n2 1 24843 24870 24839 XOR\n2 1 24871 24839 24842 XOR\n2 1 24841 24842 24944 XOR\n2 1 24834 24839 24838 XOR\n2 1 24837 24838 24943 XOR\n2 1 24862 24836 24942 XOR\n2 1 24852 24829 24828 XOR\n2 1 24889 24857 24826 XOR\n2 1 24825 24826 36474 XOR\n2 1 36474 99 412 XOR\n2 1 67 412 444 XOR\n2 1 36506 412 284 XOR\n2 1 35 444 476 XOR\n2 1 3 476 508 XOR\n2 1 444 284 316 XOR\n2 1 476 316 348 XOR\n2 1 508 348 380 XOR\n2 1 24896 24937 24874 AND\n2 1 24885 24874 24835 XOR\n",
"1 1 24835 24831 INV\n2 1 24831 24832 24941 XOR\n1 1 24944 36471 INV\n2 1 36471 96 415 XOR\n2 1 64 415 447 XOR\n2 1 36503 415 287 XOR\n2 1 447 287 319 XOR\n2 1 32 447 479 XOR\n2 1 0 479 511 XOR\n2 1 479 319 351 XOR\n2 1 511 351 383 XOR\n1 1 24943 36472 INV\n2 1 36472 97 414 XOR\n2 1 36504 414 286 XOR\n2 1 65 414 446 XOR\n2 1 33 446 478 XOR\n2 1 1 478 510 XOR\n2 1 446 286 318 XOR\n2 1 478 318 350 XOR\n2 1 510 350 382 XOR\n2 1 382 380 13014 XOR\n2 1 510 508 13154 XOR\n1 1 24942 36477 INV\n2 1 36477 102 409 XOR\n2 1 70 409 441 XOR\n2 1 38 441 473 XOR\n2 1 6 473 505 XOR\n2 1 36509 409 281 XOR\n2 1 441 281 313 XOR\n2 1 473 313 345 XOR\n2 1 505 345 377 XOR\n2 1 383 377 13021 XOR\n2 1 511 505 13161 XOR\n1 1 24941 36476 INV\n2 1 36476 101 410 XOR\n2 1 69 410 442 XOR\n2 1 37 442 474 XOR\n2 1 5 474 506 XOR\n2 1 36508 410 282 XOR\n2 1 442 282 314 XOR\n2 1 474 314 346 XOR\n2 1 506 346 378 XOR\n2 1 378 13021 13107 XOR\n2 1 382 13107 13103 XOR\n2 1 13107 13103 13090 AND\n2 1 506 13161 13247 XOR\n2 1 510 13247 13243 XOR\n2 1 13247 13243 13230 AND\n2 1 1 3 24983 XOR\n2 1 5 7 24984 XOR\n2 1 2 24983 24985 XOR\n2 1 6 24985 25067 XOR\n2 1 5 24985 25064 XOR\n2 1 4 6 24986 XOR\n2 1 0 6 24990 XOR\n2 1 24990 24985 25066 XOR\n2 1 4 7 25078 XOR\n2 1 24984 24990 25073 XOR\n2 1 24983 25078 25070 XOR\n2 1 0 25070 25069 XOR\n2 1 1 2 25000 XOR\n2 1 25000 25073 25071 XOR\n2 1 25078 25000 25074 XOR\n2 1 2 4 25080 XOR\n2 1 24984 25080 25065 XOR\n2 1 5 24990 25076 XOR\n2 1 1 25076 25072 XOR\n2 1 3 2 24960 XOR\n2 1 24986 24984 24946 XOR\n2 1 24983 24946 25068 XOR\n2 1 24986 5 24945 XOR\n2 1 0 24945 25075 XOR\n2 1 7 1 25079 XOR\n2 1 7 2 25077 XOR\n2 1 25070 25074 25063 AND\n2 1 25063 24986 24989 XOR\n2 1 25071 25069 25062 AND\n2 1 25075 0 25061 AND\n2 1 25079 25064 25060 AND\n2 1 25060 24984 24988 XOR\n2 1 25076 25072 25059 AND\n2 1 25073 25066 25058 AND\n2 1 25078 25067 25057 AND\n2 1 25057 24985 24987 XOR\n2 1 24989 24987 24993 XOR\n2 1 7 24993 24998 XOR\n2 1 25080 25065 25056 AND\n2 1 25056 25062 25007 XOR\n2 1 25007 24998 25054 XOR\n2 1 25056 25057 24959 XOR\n2 1 24959 24960 25006 XOR\n2 1 25006 24988 25005 XOR\n2 1 25059 25005 25053 XOR\n2 1 25077 25068 25055 AND\n2 1 25055 25058 25008 XOR\n2 1 25055 25061 25012 XOR\n2 1 25012 24984 24999 XOR\n2 1 25007 24999 25051 XOR\n2 1 25056 25008 25002 XOR\n2 1 24988 25008 24962 XOR\n2 1 24962 24987 25052 XOR\n2 1 24993 25012 24961 XOR\n2 1 5 24961 25004 XOR\n2 1 25059 25002 24958 XOR\n2 1 1 24958 25046 XOR\n2 1 25054 25053 25050 AND\n2 1 25050 25004 25045 XOR\n2 1 25050 25052 25049 XOR\n2 1 25051 25049 25048 AND\n2 1 25048 25004 25047 XOR\n2 1 25048 25060 24953 XOR\n2 1 24953 24989 24949 XOR\n2 1 7 24949 24952 XOR\n2 1 25048 24998 24950 XOR\n2 1 5 24949 24948 XOR\n2 1 25045 25046 25044 AND\n2 1 25044 25052 25043 XOR\n2 1 25050 25044 25042 XOR\n2 1 25044 25002 24957 XOR\n2 1 25044 25061 24956 XOR\n2 1 24956 25058 24951 XOR\n2 1 24951 24952 25035 XOR\n2 1 25052 25042 25041 AND\n2 1 25041 25049 25039 XOR\n2 1 25041 25059 25011 XOR\n2 1 25011 25005 25033 XOR\n2 1 1 25011 24994 XOR\n2 1 24994 24957 25040 XOR\n",
"2 1 25047 25039 25038 AND\n2 1 25038 25007 24997 XOR\n2 1 24997 24999 25037 XOR\n2 1 25038 25062 24955 XOR\n2 1 24994 24955 24947 XOR\n2 1 24984 24947 24954 XOR\n2 1 24951 24954 25036 XOR\n2 1 24997 24950 25034 XOR\n2 1 24947 24948 25032 XOR\n2 1 25033 25070 25031 AND\n2 1 25040 25069 25030 AND\n2 1 25043 0 25029 AND\n2 1 25029 25031 25010 XOR\n2 1 25034 25064 25028 AND\n2 1 25037 25076 25027 AND\n2 1 25027 25028 25013 XOR\n2 1 25047 25066 25026 AND\n2 1 25026 25027 24964 XOR\n2 1 25035 25067 25025 AND\n2 1 25032 25065 25024 AND\n2 1 25024 25013 25003 XOR\n2 1 25024 25027 24979 XOR\n1 1 24979 24976 INV\n2 1 25024 25025 24975 XOR\n2 1 25025 25003 24963 XOR\n2 1 25036 25068 25023 AND\n2 1 25033 25074 25022 AND\n2 1 25040 25071 25021 AND\n2 1 25043 25075 25020 AND\n2 1 25020 25003 24969 XOR\n1 1 24969 24966 INV\n2 1 25034 25079 25019 AND\n2 1 25019 25023 24995 XOR\n2 1 25028 25019 24980 XOR\n1 1 24995 24973 INV\n2 1 25037 25072 25018 AND\n2 1 25026 25018 24982 XOR\n2 1 25047 25073 25017 AND\n2 1 24973 25017 24972 XOR\n2 1 24972 25010 24968 XOR\n2 1 25035 25078 25016 AND\n2 1 25016 24968 24971 XOR\n2 1 25032 25080 25015 AND\n2 1 25015 25016 25009 XOR\n2 1 25021 25009 24991 XOR\n2 1 25022 24991 24992 XOR\n2 1 25030 24992 24996 XOR\n2 1 25031 24996 25001 XOR\n2 1 25013 25001 36483 XOR\n2 1 36483 108 403 XOR\n2 1 76 403 435 XOR\n2 1 44 435 467 XOR\n2 1 12 467 499 XOR\n2 1 24982 25009 24978 XOR\n2 1 25010 24978 24981 XOR\n2 1 24980 24981 25084 XOR\n2 1 24973 24978 24977 XOR\n2 1 24976 24977 25083 XOR\n2 1 25001 24975 25082 XOR\n2 1 24991 24968 24967 XOR\n2 1 24966 24967 36481 XOR\n2 1 36481 106 405 XOR\n2 1 74 405 437 XOR\n2 1 42 437 469 XOR\n2 1 10 469 501 XOR\n2 1 501 499 22848 XOR\n2 1 25029 24996 24965 XOR\n2 1 24964 24965 36482 XOR\n2 1 36482 107 404 XOR\n2 1 75 404 436 XOR\n2 1 43 436 468 XOR\n2 1 11 468 500 XOR\n2 1 500 501 22729 XOR\n2 1 24992 24963 36486 XOR\n2 1 36486 111 400 XOR\n2 1 79 400 432 XOR\n2 1 47 432 464 XOR\n2 1 15 464 496 XOR\n2 1 499 496 22846 XOR\n2 1 496 501 22845 XOR\n2 1 25036 25077 25014 AND\n2 1 25025 25014 24974 XOR\n1 1 24974 24970 INV\n2 1 24970 24971 25081 XOR\n1 1 25084 36479 INV\n2 1 36479 104 407 XOR\n2 1 72 407 439 XOR\n2 1 40 439 471 XOR\n2 1 8 471 503 XOR\n1 1 25083 36480 INV\n2 1 36480 105 406 XOR\n2 1 73 406 438 XOR\n2 1 41 438 470 XOR\n2 1 9 470 502 XOR\n2 1 502 500 22752 XOR\n2 1 501 22752 22754 XOR\n2 1 22752 22846 22838 XOR\n2 1 503 22838 22837 XOR\n2 1 502 501 22769 XOR\n2 1 22846 22769 22842 XOR\n2 1 496 502 22847 XOR\n2 1 22838 22842 22831 AND\n1 1 25082 36485 INV\n2 1 36485 110 401 XOR\n2 1 78 401 433 XOR\n2 1 46 433 465 XOR\n2 1 14 465 497 XOR\n2 1 497 22754 22835 XOR\n2 1 499 497 22755 XOR\n2 1 22831 22755 22758 XOR\n2 1 503 497 22759 XOR\n2 1 22759 22754 22834 XOR\n2 1 22846 22835 22825 AND\n2 1 22825 22754 22756 XOR\n2 1 22758 22756 22762 XOR\n2 1 496 22762 22767 XOR\n1 1 25081 36484 INV\n2 1 36484 109 402 XOR\n2 1 77 402 434 XOR\n2 1 45 434 466 XOR\n2 1 13 466 498 XOR\n2 1 498 22754 22832 XOR\n2 1 498 496 22753 XOR\n2 1 22753 22848 22833 XOR\n2 1 22753 22759 22841 XOR\n2 1 22769 22841 22839 XOR\n2 1 498 22759 22844 XOR\n2 1 502 22844 22840 XOR\n",
"2 1 22755 22753 22715 XOR\n2 1 22752 22715 22836 XOR\n2 1 22755 498 22714 XOR\n2 1 503 22714 22843 XOR\n2 1 22839 22837 22830 AND\n2 1 22843 503 22829 AND\n2 1 22847 22832 22828 AND\n2 1 22828 22753 22757 XOR\n2 1 22844 22840 22827 AND\n2 1 22841 22834 22826 AND\n2 1 22848 22833 22824 AND\n2 1 22824 22830 22776 XOR\n2 1 22776 22767 22822 XOR\n2 1 22824 22825 22728 XOR\n2 1 22728 22729 22775 XOR\n2 1 22775 22757 22774 XOR\n2 1 22827 22774 22821 XOR\n2 1 22845 22836 22823 AND\n2 1 22823 22826 22777 XOR\n2 1 22823 22829 22781 XOR\n2 1 22781 22753 22768 XOR\n2 1 22776 22768 22819 XOR\n2 1 22824 22777 22771 XOR\n2 1 22757 22777 22731 XOR\n2 1 22731 22756 22820 XOR\n2 1 22762 22781 22730 XOR\n2 1 498 22730 22773 XOR\n2 1 22827 22771 22727 XOR\n2 1 502 22727 22814 XOR\n2 1 22822 22821 22818 AND\n2 1 22818 22773 22813 XOR\n2 1 22818 22820 22817 XOR\n2 1 22819 22817 22816 AND\n2 1 22816 22773 22815 XOR\n2 1 22816 22828 22722 XOR\n2 1 22722 22758 22718 XOR\n2 1 496 22718 22721 XOR\n2 1 22816 22767 22719 XOR\n2 1 498 22718 22717 XOR\n2 1 22813 22814 22812 AND\n2 1 22812 22820 22811 XOR\n2 1 22818 22812 22810 XOR\n2 1 22812 22771 22726 XOR\n2 1 22812 22829 22725 XOR\n2 1 22725 22826 22720 XOR\n2 1 22720 22721 22803 XOR\n2 1 22820 22810 22809 AND\n2 1 22809 22817 22807 XOR\n2 1 22809 22827 22780 XOR\n2 1 22780 22774 22801 XOR\n2 1 502 22780 22763 XOR\n2 1 22763 22726 22808 XOR\n2 1 22815 22807 22806 AND\n2 1 22806 22776 22766 XOR\n2 1 22766 22768 22805 XOR\n2 1 22806 22830 22724 XOR\n2 1 22763 22724 22716 XOR\n2 1 22753 22716 22723 XOR\n2 1 22720 22723 22804 XOR\n2 1 22766 22719 22802 XOR\n2 1 22716 22717 22800 XOR\n2 1 22801 22838 22799 AND\n2 1 22808 22837 22798 AND\n2 1 22811 503 22797 AND\n2 1 22797 22799 22779 XOR\n2 1 22802 22832 22796 AND\n2 1 22805 22844 22795 AND\n2 1 22815 22834 22794 AND\n2 1 22794 22795 22733 XOR\n2 1 22803 22835 22793 AND\n2 1 22800 22833 22792 AND\n2 1 22792 22795 22748 XOR\n1 1 22748 22745 INV\n2 1 22792 22793 22744 XOR\n2 1 22804 22836 22791 AND\n2 1 22801 22842 22790 AND\n2 1 22808 22839 22789 AND\n2 1 22811 22843 22788 AND\n2 1 22802 22847 22787 AND\n2 1 22787 22791 22764 XOR\n2 1 22796 22787 22749 XOR\n1 1 22764 22742 INV\n2 1 22805 22840 22786 AND\n2 1 22794 22786 22751 XOR\n2 1 22815 22841 22785 AND\n2 1 22742 22785 22741 XOR\n2 1 22741 22779 22737 XOR\n2 1 22803 22846 22784 AND\n2 1 22784 22737 22740 XOR\n2 1 22800 22848 22783 AND\n2 1 22783 22784 22778 XOR\n2 1 22789 22778 22760 XOR\n2 1 22790 22760 22761 XOR\n2 1 22798 22761 22765 XOR\n2 1 22799 22765 22770 XOR\n2 1 22751 22778 22747 XOR\n2 1 22779 22747 22750 XOR\n2 1 22749 22750 22852 XOR\n2 1 22742 22747 22746 XOR\n2 1 22745 22746 22851 XOR\n2 1 22770 22744 22850 XOR\n2 1 22760 22737 22736 XOR\n2 1 22797 22765 22734 XOR\n2 1 22733 22734 36522 XOR\n2 1 36522 396 268 XOR\n2 1 428 268 300 XOR\n2 1 460 300 332 XOR\n2 1 492 332 364 XOR\n2 1 22804 22845 22782 AND\n2 1 22793 22782 22743 XOR\n1 1 22743 22739 INV\n2 1 22739 22740 22849 XOR\n1 1 22852 36519 INV\n2 1 36519 399 271 XOR\n2 1 431 271 303 XOR\n2 1 463 303 335 XOR\n2 1 495 335 367 XOR\n1 1 22851 36520 INV\n2 1 36520 398 270 XOR\n2 1 430 270 302 XOR\n2 1 462 302 334 XOR\n2 1 494 334 366 XOR\n2 1 366 364 19138 XOR\n1 1 22850 36525 INV\n2 1 36525 393 265 XOR\n2 1 425 265 297 XOR\n2 1 457 297 329 XOR\n2 1 489 329 361 XOR\n",
"2 1 367 361 19145 XOR\n1 1 22849 36524 INV\n2 1 36524 394 266 XOR\n2 1 426 266 298 XOR\n2 1 458 298 330 XOR\n2 1 490 330 362 XOR\n2 1 362 19145 19230 XOR\n2 1 366 19230 19226 XOR\n2 1 19230 19226 19213 AND\n2 1 33255 33257 31982 XOR\n2 1 33259 33261 31983 XOR\n2 1 33256 31982 31984 XOR\n2 1 33260 31984 32065 XOR\n2 1 33259 31984 32062 XOR\n2 1 33258 33260 31985 XOR\n2 1 33254 33260 31989 XOR\n2 1 31989 31984 32064 XOR\n2 1 33258 33261 32076 XOR\n2 1 31983 31989 32071 XOR\n2 1 31982 32076 32068 XOR\n2 1 33254 32068 32067 XOR\n2 1 33255 33256 31999 XOR\n2 1 31999 32071 32069 XOR\n2 1 32076 31999 32072 XOR\n2 1 33256 33258 32078 XOR\n2 1 31983 32078 32063 XOR\n2 1 33259 31989 32074 XOR\n2 1 33255 32074 32070 XOR\n2 1 33257 33256 31959 XOR\n2 1 31985 31983 31945 XOR\n2 1 31982 31945 32066 XOR\n2 1 31985 33259 31944 XOR\n2 1 33254 31944 32073 XOR\n2 1 33261 33255 32077 XOR\n2 1 33261 33256 32075 XOR\n2 1 32068 32072 32061 AND\n2 1 32061 31985 31988 XOR\n2 1 32069 32067 32060 AND\n2 1 32073 33254 32059 AND\n2 1 32077 32062 32058 AND\n2 1 32058 31983 31987 XOR\n2 1 32074 32070 32057 AND\n2 1 32071 32064 32056 AND\n2 1 32076 32065 32055 AND\n2 1 32055 31984 31986 XOR\n2 1 31988 31986 31992 XOR\n2 1 33261 31992 31997 XOR\n2 1 32078 32063 32054 AND\n2 1 32054 32060 32006 XOR\n2 1 32006 31997 32052 XOR\n2 1 32054 32055 31958 XOR\n2 1 31958 31959 32005 XOR\n2 1 32005 31987 32004 XOR\n2 1 32057 32004 32051 XOR\n2 1 32075 32066 32053 AND\n2 1 32053 32056 32007 XOR\n2 1 32053 32059 32011 XOR\n2 1 32011 31983 31998 XOR\n2 1 32006 31998 32049 XOR\n2 1 32054 32007 32001 XOR\n2 1 31987 32007 31961 XOR\n2 1 31961 31986 32050 XOR\n2 1 31992 32011 31960 XOR\n2 1 33259 31960 32003 XOR\n2 1 32057 32001 31957 XOR\n2 1 33255 31957 32044 XOR\n2 1 32052 32051 32048 AND\n2 1 32048 32003 32043 XOR\n2 1 32048 32050 32047 XOR\n2 1 32049 32047 32046 AND\n2 1 32046 32003 32045 XOR\n2 1 32046 32058 31952 XOR\n2 1 31952 31988 31948 XOR\n2 1 33261 31948 31951 XOR\n2 1 32046 31997 31949 XOR\n2 1 33259 31948 31947 XOR\n2 1 32043 32044 32042 AND\n2 1 32042 32050 32041 XOR\n2 1 32048 32042 32040 XOR\n2 1 32042 32001 31956 XOR\n2 1 32042 32059 31955 XOR\n2 1 31955 32056 31950 XOR\n2 1 31950 31951 32033 XOR\n2 1 32050 32040 32039 AND\n2 1 32039 32047 32037 XOR\n2 1 32039 32057 32010 XOR\n2 1 32010 32004 32031 XOR\n2 1 33255 32010 31993 XOR\n2 1 31993 31956 32038 XOR\n2 1 32045 32037 32036 AND\n2 1 32036 32006 31996 XOR\n2 1 31996 31998 32035 XOR\n2 1 32036 32060 31954 XOR\n2 1 31993 31954 31946 XOR\n2 1 31983 31946 31953 XOR\n2 1 31950 31953 32034 XOR\n2 1 31996 31949 32032 XOR\n2 1 31946 31947 32030 XOR\n2 1 32031 32068 32029 AND\n2 1 32038 32067 32028 AND\n2 1 32041 33254 32027 AND\n2 1 32027 32029 32009 XOR\n2 1 32032 32062 32026 AND\n2 1 32035 32074 32025 AND\n2 1 32045 32064 32024 AND\n2 1 32024 32025 31963 XOR\n2 1 32033 32065 32023 AND\n2 1 32030 32063 32022 AND\n2 1 32022 32025 31978 XOR\n1 1 31978 31975 INV\n2 1 32022 32023 31974 XOR\n2 1 32034 32066 32021 AND\n2 1 32031 32072 32020 AND\n2 1 32038 32069 32019 AND\n2 1 32041 32073 32018 AND\n2 1 32032 32077 32017 AND\n2 1 32017 32021 31994 XOR\n2 1 32026 32017 31979 XOR\n1 1 31994 31972 INV\n2 1 32035 32070 32016 AND\n2 1 32024 32016 31981 XOR\n2 1 32045 32071 32015 AND\n2 1 31972 32015 31971 XOR\n2 1 31971 32009 31967 XOR\n2 1 32033 32076 32014 AND\n2 1 32014 31967 31970 XOR\n2 1 32030 32078 32013 AND\n2 1 32013 32014 32008 XOR\n",
"2 1 32019 32008 31990 XOR\n2 1 32020 31990 31991 XOR\n2 1 32028 31991 31995 XOR\n2 1 32029 31995 32000 XOR\n2 1 31981 32008 31977 XOR\n2 1 32009 31977 31980 XOR\n2 1 31979 31980 32082 XOR\n2 1 31972 31977 31976 XOR\n2 1 31975 31976 32081 XOR\n2 1 32000 31974 32080 XOR\n2 1 34854 32080 5053 XOR\n2 1 31990 31967 31966 XOR\n2 1 32027 31995 31964 XOR\n2 1 31963 31964 34847 XOR\n2 1 34847 34860 5019 XOR\n2 1 32034 32075 32012 AND\n2 1 32023 32012 31973 XOR\n1 1 31973 31969 INV\n2 1 31969 31970 32079 XOR\n1 1 32080 34849 INV\n2 1 33263 33265 32260 XOR\n2 1 33267 33269 32261 XOR\n2 1 33264 32260 32262 XOR\n2 1 33268 32262 32343 XOR\n2 1 33267 32262 32340 XOR\n2 1 33266 33268 32263 XOR\n2 1 33262 33268 32267 XOR\n2 1 32267 32262 32342 XOR\n2 1 33266 33269 32354 XOR\n2 1 32261 32267 32349 XOR\n2 1 32260 32354 32346 XOR\n2 1 33262 32346 32345 XOR\n2 1 33263 33264 32277 XOR\n2 1 32277 32349 32347 XOR\n2 1 32354 32277 32350 XOR\n2 1 33264 33266 32356 XOR\n2 1 32261 32356 32341 XOR\n2 1 33267 32267 32352 XOR\n2 1 33263 32352 32348 XOR\n2 1 33265 33264 32237 XOR\n2 1 32263 32261 32223 XOR\n2 1 32260 32223 32344 XOR\n2 1 32263 33267 32222 XOR\n2 1 33262 32222 32351 XOR\n2 1 33269 33263 32355 XOR\n2 1 33269 33264 32353 XOR\n2 1 32346 32350 32339 AND\n2 1 32339 32263 32266 XOR\n2 1 32347 32345 32338 AND\n2 1 32351 33262 32337 AND\n2 1 32355 32340 32336 AND\n2 1 32336 32261 32265 XOR\n2 1 32352 32348 32335 AND\n2 1 32349 32342 32334 AND\n2 1 32354 32343 32333 AND\n2 1 32333 32262 32264 XOR\n2 1 32266 32264 32270 XOR\n2 1 33269 32270 32275 XOR\n2 1 32356 32341 32332 AND\n2 1 32332 32338 32284 XOR\n2 1 32284 32275 32330 XOR\n2 1 32332 32333 32236 XOR\n2 1 32236 32237 32283 XOR\n2 1 32283 32265 32282 XOR\n2 1 32335 32282 32329 XOR\n2 1 32353 32344 32331 AND\n2 1 32331 32334 32285 XOR\n2 1 32331 32337 32289 XOR\n2 1 32289 32261 32276 XOR\n2 1 32284 32276 32327 XOR\n2 1 32332 32285 32279 XOR\n2 1 32265 32285 32239 XOR\n2 1 32239 32264 32328 XOR\n2 1 32270 32289 32238 XOR\n2 1 33267 32238 32281 XOR\n2 1 32335 32279 32235 XOR\n2 1 33263 32235 32322 XOR\n2 1 32330 32329 32326 AND\n2 1 32326 32281 32321 XOR\n2 1 32326 32328 32325 XOR\n2 1 32327 32325 32324 AND\n2 1 32324 32281 32323 XOR\n2 1 32324 32336 32230 XOR\n2 1 32230 32266 32226 XOR\n2 1 33269 32226 32229 XOR\n2 1 32324 32275 32227 XOR\n2 1 33267 32226 32225 XOR\n2 1 32321 32322 32320 AND\n2 1 32320 32328 32319 XOR\n2 1 32326 32320 32318 XOR\n2 1 32320 32279 32234 XOR\n2 1 32320 32337 32233 XOR\n2 1 32233 32334 32228 XOR\n2 1 32228 32229 32311 XOR\n2 1 32328 32318 32317 AND\n2 1 32317 32325 32315 XOR\n2 1 32317 32335 32288 XOR\n2 1 32288 32282 32309 XOR\n2 1 33263 32288 32271 XOR\n2 1 32271 32234 32316 XOR\n2 1 32323 32315 32314 AND\n2 1 32314 32284 32274 XOR\n2 1 32274 32276 32313 XOR\n2 1 32314 32338 32232 XOR\n2 1 32271 32232 32224 XOR\n2 1 32261 32224 32231 XOR\n2 1 32228 32231 32312 XOR\n2 1 32274 32227 32310 XOR\n2 1 32224 32225 32308 XOR\n2 1 32309 32346 32307 AND\n2 1 32316 32345 32306 AND\n2 1 32319 33262 32305 AND\n2 1 32305 32307 32287 XOR\n2 1 32310 32340 32304 AND\n2 1 32313 32352 32303 AND\n2 1 32323 32342 32302 AND\n2 1 32302 32303 32241 XOR\n2 1 32311 32343 32301 AND\n2 1 32308 32341 32300 AND\n2 1 32300 32303 32256 XOR\n1 1 32256 32253 INV\n2 1 32300 32301 32252 XOR\n2 1 32312 32344 32299 AND\n2 1 32309 32350 32298 AND\n2 1 32316 32347 32297 AND\n2 1 32319 32351 32296 AND\n2 1 32310 32355 32295 AND\n2 1 32295 32299 32272 XOR\n",
"2 1 32304 32295 32257 XOR\n1 1 32272 32250 INV\n2 1 32313 32348 32294 AND\n2 1 32302 32294 32259 XOR\n2 1 32323 32349 32293 AND\n2 1 32250 32293 32249 XOR\n2 1 32249 32287 32245 XOR\n2 1 32311 32354 32292 AND\n2 1 32292 32245 32248 XOR\n2 1 32308 32356 32291 AND\n2 1 32291 32292 32286 XOR\n2 1 32297 32286 32268 XOR\n2 1 32298 32268 32269 XOR\n2 1 32306 32269 32273 XOR\n2 1 32307 32273 32278 XOR\n2 1 32259 32286 32255 XOR\n2 1 32287 32255 32258 XOR\n2 1 32257 32258 32360 XOR\n2 1 32250 32255 32254 XOR\n2 1 32253 32254 32359 XOR\n2 1 32278 32252 32358 XOR\n2 1 32268 32245 32244 XOR\n2 1 32305 32273 32242 XOR\n2 1 32241 32242 34833 XOR\n2 1 34828 34833 4992 XOR\n1 1 4992 5226 INV\n1 1 34833 5264 INV\n2 1 34839 5264 5254 XOR\n2 1 32312 32353 32290 AND\n2 1 32301 32290 32251 XOR\n1 1 32251 32247 INV\n2 1 32247 32248 32357 XOR\n1 1 32359 34831 INV\n1 1 32358 34836 INV\n1 1 32357 34835 INV\n2 1 3499 3500 32641 XOR\n2 1 3496 32641 3476 XOR\n2 1 3497 3476 3436 XOR\n2 1 3465 3436 34822 XOR\n2 1 3492 3476 3442 XOR\n1 1 3442 3439 INV\n2 1 3439 3440 34819 XOR\n2 1 32641 3474 34821 XOR\n1 1 34821 5173 INV\n2 1 3638 3639 32642 XOR\n2 1 32642 3613 34807 XOR\n2 1 34807 4249 5170 XOR\n2 1 3635 32642 3615 XOR\n2 1 3631 3615 3581 XOR\n1 1 3581 3578 INV\n2 1 3578 3579 34805 XOR\n2 1 3636 3615 3575 XOR\n2 1 3604 3575 34809 XOR\n2 1 3777 3778 32643 XOR\n2 1 32643 3752 34792 XOR\n2 1 3774 32643 3754 XOR\n2 1 3770 3754 3720 XOR\n1 1 3720 3717 INV\n2 1 3717 3718 34790 XOR\n2 1 3775 3754 3714 XOR\n2 1 3743 3714 34793 XOR\n2 1 34793 34809 5031 XOR\n2 1 34790 34805 4996 XOR\n1 1 4996 5134 INV\n1 1 5031 5135 INV\n2 1 4984 5134 5137 XOR\n2 1 5135 34795 5136 XOR\n2 1 5137 5136 34665 XOR\n2 1 34665 508 33385 XOR\n2 1 5031 34791 5290 XOR\n2 1 4056 4057 32644 XOR\n2 1 4053 32644 4033 XOR\n2 1 4054 4033 3993 XOR\n2 1 4022 3993 34813 XOR\n2 1 4049 4033 3999 XOR\n1 1 3999 3996 INV\n2 1 3996 3997 34810 XOR\n2 1 5283 34810 5284 XOR\n2 1 32644 4031 34812 XOR\n2 1 4195 4196 32645 XOR\n2 1 4192 32645 4172 XOR\n2 1 4193 4172 4132 XOR\n2 1 4161 4132 34799 XOR\n2 1 3693 34799 5207 XOR\n2 1 34793 34799 5038 XOR\n1 1 5038 4949 INV\n2 1 4188 4172 4138 XOR\n2 1 4949 34792 5093 XOR\n2 1 4949 34809 5114 XOR\n2 1 5038 34791 5249 XOR\n1 1 4138 4135 INV\n2 1 4135 4136 34794 XOR\n2 1 34790 34794 5248 XOR\n2 1 5249 5248 4969 XOR\n2 1 4969 4984 34673 XOR\n2 1 34673 500 33393 XOR\n2 1 32645 4170 34796 XOR\n2 1 34792 34796 4983 XOR\n2 1 4983 4984 5119 XOR\n1 1 5119 5121 INV\n2 1 34806 34796 5289 XOR\n2 1 5290 5289 4952 XOR\n2 1 4334 4335 32646 XOR\n2 1 4331 32646 4311 XOR\n2 1 4327 4311 4277 XOR\n2 1 4332 4311 4271 XOR\n2 1 4300 4271 34845 XOR\n1 1 4277 4274 INV\n2 1 4274 4275 34842 XOR\n2 1 32646 4309 34844 XOR\n2 1 4473 4474 32647 XOR\n2 1 4470 32647 4450 XOR\n2 1 4471 4450 4410 XOR\n2 1 4439 4410 34830 XOR\n2 1 4466 4450 4416 XOR\n1 1 4416 4413 INV\n2 1 4413 4414 34827 XOR\n2 1 5264 34827 5265 XOR\n2 1 34830 34845 5035 XOR\n2 1 5035 34843 5263 XOR\n1 1 5035 5267 INV\n2 1 5267 34842 5266 XOR\n2 1 5266 5265 4962 XOR\n2 1 4962 5003 34729 XOR\n2 1 34729 444 33449 XOR\n2 1 32647 4448 34829 XOR\n2 1 32357 34829 5185 XOR\n2 1 4612 4613 32648 XOR\n",
"2 1 32648 4587 34817 XOR\n2 1 34817 34811 5281 XOR\n2 1 5173 34817 5158 XOR\n2 1 34812 34817 5013 XOR\n1 1 5013 5172 INV\n2 1 5172 5016 5175 XOR\n2 1 4609 32648 4589 XOR\n2 1 4605 4589 4555 XOR\n1 1 4555 4552 INV\n2 1 4552 4553 34815 XOR\n2 1 4610 4589 4549 XOR\n2 1 4578 4549 34818 XOR\n2 1 34813 34818 5041 XOR\n2 1 34818 34822 5034 XOR\n2 1 34810 34815 5006 XOR\n1 1 5041 5146 INV\n1 1 5006 5154 INV\n2 1 5154 5016 5144 XOR\n2 1 5146 34811 5143 XOR\n2 1 5144 5143 34705 XOR\n2 1 34705 468 33425 XOR\n2 1 5146 34812 5147 XOR\n1 1 5034 5270 INV\n2 1 5034 34824 5274 XOR\n2 1 34819 34815 5273 XOR\n2 1 5274 5273 4959 XOR\n2 1 4959 5009 34713 XOR\n2 1 34713 460 33433 XOR\n2 1 4751 4752 32649 XOR\n2 1 32649 4726 34803 XOR\n2 1 34803 34796 5109 XOR\n2 1 34803 34807 4987 XOR\n2 1 5092 4987 5094 XOR\n2 1 5094 5093 34674 XOR\n2 1 34674 499 33394 XOR\n2 1 4952 4987 34666 XOR\n2 1 4748 32649 4728 XOR\n2 1 4744 4728 4694 XOR\n1 1 4694 4691 INV\n2 1 4691 4692 34801 XOR\n2 1 4749 4728 4688 XOR\n2 1 4717 4688 34804 XOR\n2 1 34804 34809 5039 XOR\n2 1 34799 34804 5037 XOR\n2 1 34794 34801 4999 XOR\n1 1 34801 5243 INV\n1 1 5037 5103 INV\n1 1 4999 5116 INV\n2 1 4974 5116 5105 XOR\n2 1 5103 34806 5104 XOR\n2 1 5105 5104 34681 XOR\n2 1 34681 492 33401 XOR\n2 1 5116 34790 5118 XOR\n2 1 34802 5243 5244 XOR\n2 1 5037 34807 5253 XOR\n2 1 5253 5252 4967 XOR\n2 1 4967 4983 34682 XOR\n2 1 4890 4891 32650 XOR\n2 1 4887 32650 4867 XOR\n2 1 4883 4867 4833 XOR\n1 1 4833 4830 INV\n2 1 4830 4831 34859 XOR\n2 1 34860 34859 5277 XOR\n2 1 4888 4867 4827 XOR\n2 1 4856 4827 34862 XOR\n2 1 32650 4865 34861 XOR\n2 1 15428 15429 32664 XOR\n2 1 32664 15403 34857 XOR\n2 1 34857 34856 5238 XOR\n2 1 34857 34861 5028 XOR\n2 1 5019 5028 5048 XOR\n2 1 15425 32664 15405 XOR\n2 1 15421 15405 15371 XOR\n1 1 15371 15368 INV\n2 1 15368 15369 34855 XOR\n2 1 34855 34859 5027 XOR\n2 1 5025 5027 5086 XOR\n2 1 15426 15405 15365 XOR\n2 1 15394 15365 34858 XOR\n2 1 34858 34862 5045 XOR\n2 1 34854 34858 5030 XOR\n2 1 5030 34861 5073 XOR\n2 1 5045 34860 5239 XOR\n2 1 5239 5238 4973 XOR\n2 1 5030 34855 5292 XOR\n2 1 5292 5291 4951 XOR\n2 1 4951 5019 34777 XOR\n2 1 34777 396 33497 XOR\n2 1 15567 15568 32665 XOR\n2 1 15564 32665 15544 XOR\n2 1 15565 15544 15504 XOR\n2 1 15533 15504 34841 XOR\n2 1 34841 34845 5043 XOR\n2 1 15560 15544 15510 XOR\n1 1 15510 15507 INV\n2 1 15507 15508 34838 XOR\n2 1 34838 34842 4993 XOR\n1 1 4993 5181 INV\n2 1 5226 4993 5228 XOR\n2 1 32665 15542 34840 XOR\n2 1 34840 34844 5012 XOR\n2 1 5226 5012 5203 XOR\n2 1 16262 16263 32670 XOR\n2 1 16259 32670 16239 XOR\n2 1 16260 16239 16199 XOR\n2 1 16228 16199 36494 XOR\n2 1 16255 16239 16205 XOR\n1 1 16205 16202 INV\n2 1 16202 16203 36489 XOR\n2 1 36489 114 397 XOR\n2 1 82 397 429 XOR\n2 1 50 429 461 XOR\n2 1 18 461 493 XOR\n2 1 492 493 13271 XOR\n2 1 36494 119 392 XOR\n2 1 87 392 424 XOR\n2 1 55 424 456 XOR\n2 1 23 456 488 XOR\n2 1 490 488 13295 XOR\n2 1 13295 13301 13384 XOR\n2 1 488 493 13388 XOR\n2 1 493 13294 13296 XOR\n2 1 489 13296 13378 XOR\n2 1 490 13296 13375 XOR\n2 1 13301 13296 13377 XOR\n2 1 13384 13377 13369 AND\n2 1 494 493 13312 XOR\n2 1 13312 13384 13382 XOR\n",
"2 1 488 494 13390 XOR\n2 1 13390 13375 13371 AND\n2 1 13371 13295 13299 XOR\n2 1 32670 16237 36491 XOR\n2 1 36491 116 395 XOR\n2 1 84 395 427 XOR\n2 1 52 427 459 XOR\n2 1 20 459 491 XOR\n2 1 34682 491 33402 XOR\n2 1 491 489 13297 XOR\n2 1 491 488 13389 XOR\n2 1 13389 13312 13385 XOR\n2 1 13294 13389 13381 XOR\n2 1 495 13381 13380 XOR\n2 1 493 491 13391 XOR\n2 1 13295 13391 13376 XOR\n2 1 13297 13295 13257 XOR\n2 1 13294 13257 13379 XOR\n2 1 13297 490 13256 XOR\n2 1 495 13256 13386 XOR\n2 1 13381 13385 13374 AND\n2 1 13374 13297 13300 XOR\n2 1 13382 13380 13373 AND\n2 1 13386 495 13372 AND\n2 1 13389 13378 13368 AND\n2 1 13368 13296 13298 XOR\n2 1 13300 13298 13304 XOR\n2 1 488 13304 13310 XOR\n2 1 13391 13376 13367 AND\n2 1 13367 13373 13319 XOR\n2 1 13319 13310 13365 XOR\n2 1 13367 13368 13270 XOR\n2 1 13270 13271 13318 XOR\n2 1 13318 13299 13317 XOR\n2 1 13370 13317 13364 XOR\n2 1 13388 13379 13366 AND\n2 1 13366 13369 13320 XOR\n2 1 13366 13372 13324 XOR\n2 1 13324 13295 13311 XOR\n2 1 13319 13311 13362 XOR\n2 1 13367 13320 13314 XOR\n2 1 13299 13320 13273 XOR\n2 1 13273 13298 13363 XOR\n2 1 13304 13324 13272 XOR\n2 1 490 13272 13316 XOR\n2 1 13370 13314 13269 XOR\n2 1 494 13269 13357 XOR\n2 1 13365 13364 13361 AND\n2 1 13361 13316 13356 XOR\n2 1 13361 13363 13360 XOR\n2 1 13362 13360 13359 AND\n2 1 13359 13316 13358 XOR\n2 1 13359 13371 13264 XOR\n2 1 13264 13300 13260 XOR\n2 1 488 13260 13263 XOR\n2 1 13359 13310 13261 XOR\n2 1 490 13260 13259 XOR\n2 1 13356 13357 13355 AND\n2 1 13355 13363 13354 XOR\n2 1 13361 13355 13353 XOR\n2 1 13355 13314 13268 XOR\n2 1 13355 13372 13267 XOR\n2 1 13267 13369 13262 XOR\n2 1 13262 13263 13346 XOR\n2 1 13363 13353 13352 AND\n2 1 13352 13360 13350 XOR\n2 1 13352 13370 13323 XOR\n2 1 13323 13317 13344 XOR\n2 1 494 13323 13305 XOR\n2 1 13305 13268 13351 XOR\n2 1 13358 13350 13349 AND\n2 1 13349 13319 13309 XOR\n2 1 13309 13311 13348 XOR\n2 1 13349 13373 13266 XOR\n2 1 13305 13266 13258 XOR\n2 1 13295 13258 13265 XOR\n2 1 13262 13265 13347 XOR\n2 1 13309 13261 13345 XOR\n2 1 13258 13259 13343 XOR\n2 1 13344 13381 13342 AND\n2 1 13351 13380 13341 AND\n2 1 13354 495 13340 AND\n2 1 13340 13342 13322 XOR\n2 1 13345 13375 13339 AND\n2 1 13348 13387 13338 AND\n2 1 13338 13339 13307 XOR\n2 1 13358 13377 13337 AND\n2 1 13337 13338 13275 XOR\n2 1 13346 13378 13336 AND\n2 1 13343 13376 13335 AND\n2 1 13335 13307 13315 XOR\n2 1 13335 13338 13290 XOR\n1 1 13290 13287 INV\n2 1 13335 13336 13286 XOR\n2 1 13336 13315 13274 XOR\n2 1 13347 13379 13334 AND\n2 1 13344 13385 13333 AND\n2 1 13351 13382 13332 AND\n2 1 13354 13386 13331 AND\n2 1 13331 13315 13280 XOR\n1 1 13280 13277 INV\n2 1 13345 13390 13330 AND\n2 1 13330 13334 13306 XOR\n2 1 13339 13330 13291 XOR\n1 1 13306 13284 INV\n2 1 13348 13383 13329 AND\n2 1 13337 13329 13293 XOR\n2 1 13358 13384 13328 AND\n2 1 13284 13328 13283 XOR\n2 1 13283 13322 13279 XOR\n2 1 13346 13389 13327 AND\n2 1 13327 13279 13282 XOR\n2 1 13343 13391 13326 AND\n2 1 13326 13327 13321 XOR\n2 1 13332 13321 13302 XOR\n2 1 13333 13302 13303 XOR\n2 1 13341 13303 13308 XOR\n2 1 13342 13308 13313 XOR\n2 1 13307 13313 36531 XOR\n2 1 36531 387 259 XOR\n2 1 419 259 291 XOR\n2 1 451 291 323 XOR\n2 1 483 323 355 XOR\n2 1 13293 13321 13289 XOR\n2 1 13322 13289 13292 XOR\n2 1 13291 13292 13395 XOR\n2 1 13284 13289 13288 XOR\n2 1 13287 13288 13394 XOR\n",
"2 1 13313 13286 13393 XOR\n2 1 13302 13279 13278 XOR\n2 1 13277 13278 36529 XOR\n2 1 36529 389 261 XOR\n2 1 421 261 293 XOR\n2 1 453 293 325 XOR\n2 1 485 325 357 XOR\n2 1 357 355 11851 XOR\n2 1 13340 13308 13276 XOR\n2 1 13275 13276 36530 XOR\n2 1 36530 388 260 XOR\n2 1 420 260 292 XOR\n2 1 452 292 324 XOR\n2 1 484 324 356 XOR\n2 1 356 357 11731 XOR\n2 1 13303 13274 36534 XOR\n2 1 36534 384 256 XOR\n2 1 416 256 288 XOR\n2 1 448 288 320 XOR\n2 1 480 320 352 XOR\n2 1 355 352 11849 XOR\n2 1 352 357 11848 XOR\n2 1 13347 13388 13325 AND\n2 1 13336 13325 13285 XOR\n1 1 13285 13281 INV\n2 1 13281 13282 13392 XOR\n1 1 13395 36527 INV\n2 1 36527 391 263 XOR\n2 1 423 263 295 XOR\n2 1 455 295 327 XOR\n2 1 487 327 359 XOR\n1 1 13394 36528 INV\n2 1 36528 390 1540 XOR\n1 1 1540 262 INV\n2 1 422 1540 1541 XOR\n1 1 1541 294 INV\n2 1 454 1541 1542 XOR\n1 1 1542 326 INV\n2 1 486 1542 1543 XOR\n1 1 1543 358 INV\n2 1 358 356 11754 XOR\n2 1 357 11754 11756 XOR\n2 1 11754 11849 11841 XOR\n2 1 359 11841 11840 XOR\n2 1 358 357 11772 XOR\n2 1 11849 11772 11845 XOR\n2 1 352 358 11850 XOR\n2 1 11841 11845 11834 AND\n1 1 13393 36533 INV\n2 1 36533 385 257 XOR\n2 1 417 257 289 XOR\n2 1 449 289 321 XOR\n2 1 481 321 353 XOR\n2 1 353 11756 11838 XOR\n2 1 355 353 11757 XOR\n2 1 11834 11757 11760 XOR\n2 1 359 353 11761 XOR\n2 1 11761 11756 11837 XOR\n2 1 11849 11838 11828 AND\n2 1 11828 11756 11758 XOR\n2 1 11760 11758 11764 XOR\n2 1 352 11764 11770 XOR\n1 1 13392 36532 INV\n2 1 36532 386 258 XOR\n2 1 418 258 290 XOR\n2 1 450 290 322 XOR\n2 1 482 322 354 XOR\n2 1 354 11756 11835 XOR\n2 1 354 352 11755 XOR\n2 1 11755 11851 11836 XOR\n2 1 11755 11761 11844 XOR\n2 1 11772 11844 11842 XOR\n2 1 354 11761 11847 XOR\n2 1 358 11847 11843 XOR\n2 1 11757 11755 11717 XOR\n2 1 11754 11717 11839 XOR\n2 1 11757 354 11716 XOR\n2 1 359 11716 11846 XOR\n2 1 11842 11840 11833 AND\n2 1 11846 359 11832 AND\n2 1 11850 11835 11831 AND\n2 1 11831 11755 11759 XOR\n2 1 11847 11843 11830 AND\n2 1 11844 11837 11829 AND\n2 1 11851 11836 11827 AND\n2 1 11827 11833 11779 XOR\n2 1 11779 11770 11825 XOR\n2 1 11827 11828 11730 XOR\n2 1 11730 11731 11778 XOR\n2 1 11778 11759 11777 XOR\n2 1 11830 11777 11824 XOR\n2 1 11848 11839 11826 AND\n2 1 11826 11829 11780 XOR\n2 1 11826 11832 11784 XOR\n2 1 11784 11755 11771 XOR\n2 1 11779 11771 11822 XOR\n2 1 11827 11780 11774 XOR\n2 1 11759 11780 11733 XOR\n2 1 11733 11758 11823 XOR\n2 1 11764 11784 11732 XOR\n2 1 354 11732 11776 XOR\n2 1 11830 11774 11729 XOR\n2 1 358 11729 11817 XOR\n2 1 11825 11824 11821 AND\n2 1 11821 11776 11816 XOR\n2 1 11821 11823 11820 XOR\n2 1 11822 11820 11819 AND\n2 1 11819 11776 11818 XOR\n2 1 11819 11831 11724 XOR\n2 1 11724 11760 11720 XOR\n2 1 352 11720 11723 XOR\n2 1 11819 11770 11721 XOR\n2 1 354 11720 11719 XOR\n2 1 11816 11817 11815 AND\n2 1 11815 11823 11814 XOR\n2 1 11821 11815 11813 XOR\n2 1 11815 11774 11728 XOR\n2 1 11815 11832 11727 XOR\n2 1 11727 11829 11722 XOR\n2 1 11722 11723 11806 XOR\n2 1 11823 11813 11812 AND\n2 1 11812 11820 11810 XOR\n2 1 11812 11830 11783 XOR\n2 1 11783 11777 11804 XOR\n2 1 358 11783 11765 XOR\n2 1 11765 11728 11811 XOR\n2 1 11818 11810 11809 AND\n2 1 11809 11779 11769 XOR\n",
"2 1 11769 11771 11808 XOR\n2 1 11809 11833 11726 XOR\n2 1 11765 11726 11718 XOR\n2 1 11755 11718 11725 XOR\n2 1 11722 11725 11807 XOR\n2 1 11769 11721 11805 XOR\n2 1 11718 11719 11803 XOR\n2 1 11804 11841 11802 AND\n2 1 11811 11840 11801 AND\n2 1 11814 359 11800 AND\n2 1 11800 11802 11782 XOR\n2 1 11805 11835 11799 AND\n2 1 11808 11847 11798 AND\n2 1 11798 11799 11767 XOR\n2 1 11818 11837 11797 AND\n2 1 11797 11798 11735 XOR\n2 1 11806 11838 11796 AND\n2 1 11803 11836 11795 AND\n2 1 11795 11767 11775 XOR\n2 1 11795 11798 11750 XOR\n1 1 11750 11747 INV\n2 1 11795 11796 11746 XOR\n2 1 11796 11775 11734 XOR\n2 1 11807 11839 11794 AND\n2 1 11804 11845 11793 AND\n2 1 11811 11842 11792 AND\n2 1 11814 11846 11791 AND\n2 1 11791 11775 11740 XOR\n1 1 11740 11737 INV\n2 1 11805 11850 11790 AND\n2 1 11790 11794 11766 XOR\n2 1 11799 11790 11751 XOR\n1 1 11766 11744 INV\n2 1 11808 11843 11789 AND\n2 1 11797 11789 11753 XOR\n2 1 11818 11844 11788 AND\n2 1 11744 11788 11743 XOR\n2 1 11743 11782 11739 XOR\n2 1 11806 11849 11787 AND\n2 1 11787 11739 11742 XOR\n2 1 11803 11851 11786 AND\n2 1 11786 11787 11781 XOR\n2 1 11792 11781 11762 XOR\n2 1 11793 11762 11763 XOR\n2 1 11801 11763 11768 XOR\n2 1 11802 11768 11773 XOR\n2 1 11767 11773 36539 XOR\n2 1 11753 11781 11749 XOR\n2 1 11782 11749 11752 XOR\n2 1 11751 11752 11855 XOR\n2 1 11744 11749 11748 XOR\n2 1 11747 11748 11854 XOR\n2 1 11773 11746 11853 XOR\n2 1 11762 11739 11738 XOR\n2 1 11737 11738 36537 XOR\n2 1 11800 11768 11736 XOR\n2 1 11735 11736 36538 XOR\n2 1 36538 284 924 XOR\n2 1 316 924 956 XOR\n2 1 11763 11734 36542 XOR\n2 1 11807 11848 11785 AND\n2 1 11796 11785 11745 XOR\n1 1 11745 11741 INV\n2 1 11741 11742 11852 XOR\n1 1 11855 36535 INV\n2 1 36535 287 927 XOR\n2 1 319 927 959 XOR\n2 1 351 959 991 XOR\n2 1 383 991 1023 XOR\n1 1 11854 36536 INV\n2 1 36536 286 926 XOR\n2 1 318 926 958 XOR\n1 1 11853 36541 INV\n2 1 36541 281 921 XOR\n2 1 313 921 953 XOR\n2 1 345 953 985 XOR\n2 1 377 985 1017 XOR\n1 1 11852 36540 INV\n2 1 36540 282 922 XOR\n2 1 314 922 954 XOR\n2 1 346 954 986 XOR\n2 1 378 986 1018 XOR\n2 1 348 956 988 XOR\n2 1 380 988 1020 XOR\n2 1 350 958 990 XOR\n2 1 382 990 1022 XOR\n2 1 1022 1020 18999 XOR\n2 1 1023 1017 19006 XOR\n2 1 1018 19006 19091 XOR\n2 1 1022 19091 19087 XOR\n2 1 19091 19087 19074 AND\n2 1 21127 21128 32705 XOR\n2 1 32705 21102 34825 XOR\n2 1 5270 34825 5272 XOR\n2 1 5272 5271 4960 XOR\n2 1 4960 5013 34714 XOR\n2 1 34821 34825 5021 XOR\n2 1 5145 5021 5148 XOR\n2 1 5148 5147 34706 XOR\n2 1 34706 467 33426 XOR\n2 1 34714 459 33434 XOR\n2 1 21124 32705 21104 XOR\n2 1 21120 21104 21070 XOR\n1 1 21070 21067 INV\n2 1 21067 21068 34823 XOR\n2 1 34819 34823 5011 XOR\n2 1 5154 34823 5156 XOR\n2 1 5009 5011 5168 XOR\n2 1 21125 21104 21064 XOR\n2 1 21093 21064 34826 XOR\n2 1 34822 34826 5042 XOR\n2 1 34813 34826 5032 XOR\n2 1 5042 34820 5167 XOR\n2 1 5168 5167 34721 XOR\n2 1 34721 452 33441 XOR\n2 1 5042 5173 5174 XOR\n2 1 5175 5174 34722 XOR\n2 1 34722 451 33442 XOR\n2 1 5032 34824 5282 XOR\n2 1 5282 5281 4955 XOR\n2 1 4955 5021 34698 XOR\n1 1 5032 5286 INV\n2 1 5286 34823 5285 XOR\n2 1 5285 5284 4954 XOR\n2 1 4954 5016 34697 XOR\n2 1 34697 476 33417 XOR\n2 1 22795 22796 32717 XOR\n2 1 22792 32717 22772 XOR\n",
"2 1 22793 22772 22732 XOR\n2 1 22761 22732 36526 XOR\n2 1 36526 392 264 XOR\n2 1 424 264 296 XOR\n2 1 456 296 328 XOR\n2 1 22788 22772 22738 XOR\n1 1 22738 22735 INV\n2 1 22735 22736 36521 XOR\n2 1 36521 397 269 XOR\n2 1 429 269 301 XOR\n2 1 461 301 333 XOR\n2 1 493 333 365 XOR\n2 1 365 19138 19140 XOR\n2 1 362 19140 19218 XOR\n2 1 364 365 19115 XOR\n2 1 366 365 19155 XOR\n2 1 361 19140 19221 XOR\n2 1 19145 19140 19220 XOR\n2 1 488 328 360 XOR\n2 1 362 360 19139 XOR\n2 1 19139 19145 19227 XOR\n2 1 360 366 19233 XOR\n2 1 19233 19218 19214 AND\n2 1 360 365 19231 XOR\n2 1 19214 19139 19143 XOR\n2 1 19227 19220 19212 AND\n2 1 19155 19227 19225 XOR\n2 1 32717 22770 36523 XOR\n2 1 36523 395 267 XOR\n2 1 427 267 299 XOR\n2 1 459 299 331 XOR\n2 1 491 331 363 XOR\n2 1 363 361 19141 XOR\n2 1 363 360 19232 XOR\n2 1 19232 19155 19228 XOR\n2 1 19138 19232 19224 XOR\n2 1 367 19224 19223 XOR\n2 1 365 363 19234 XOR\n2 1 19139 19234 19219 XOR\n2 1 19141 19139 19101 XOR\n2 1 19138 19101 19222 XOR\n2 1 19141 362 19100 XOR\n2 1 367 19100 19229 XOR\n2 1 19224 19228 19217 AND\n2 1 19217 19141 19144 XOR\n2 1 19225 19223 19216 AND\n2 1 19229 367 19215 AND\n2 1 19232 19221 19211 AND\n2 1 19211 19140 19142 XOR\n2 1 19144 19142 19148 XOR\n2 1 360 19148 19153 XOR\n2 1 19234 19219 19210 AND\n2 1 19210 19216 19162 XOR\n2 1 19162 19153 19208 XOR\n2 1 19210 19211 19114 XOR\n2 1 19114 19115 19161 XOR\n2 1 19161 19143 19160 XOR\n2 1 19213 19160 19207 XOR\n2 1 19231 19222 19209 AND\n2 1 19209 19212 19163 XOR\n2 1 19209 19215 19167 XOR\n2 1 19167 19139 19154 XOR\n2 1 19162 19154 19205 XOR\n2 1 19210 19163 19157 XOR\n2 1 19143 19163 19117 XOR\n2 1 19117 19142 19206 XOR\n2 1 19148 19167 19116 XOR\n2 1 362 19116 19159 XOR\n2 1 19213 19157 19113 XOR\n2 1 366 19113 19200 XOR\n2 1 19208 19207 19204 AND\n2 1 19204 19159 19199 XOR\n2 1 19204 19206 19203 XOR\n2 1 19205 19203 19202 AND\n2 1 19202 19159 19201 XOR\n2 1 19202 19214 19108 XOR\n2 1 19108 19144 19104 XOR\n2 1 360 19104 19107 XOR\n2 1 19202 19153 19105 XOR\n2 1 362 19104 19103 XOR\n2 1 19199 19200 19198 AND\n2 1 19198 19206 19197 XOR\n2 1 19204 19198 19196 XOR\n2 1 19198 19157 19112 XOR\n2 1 19198 19215 19111 XOR\n2 1 19111 19212 19106 XOR\n2 1 19106 19107 19189 XOR\n2 1 19206 19196 19195 AND\n2 1 19195 19203 19193 XOR\n2 1 19195 19213 19166 XOR\n2 1 19166 19160 19187 XOR\n2 1 366 19166 19149 XOR\n2 1 19149 19112 19194 XOR\n2 1 19201 19193 19192 AND\n2 1 19192 19162 19152 XOR\n2 1 19152 19154 19191 XOR\n2 1 19192 19216 19110 XOR\n2 1 19149 19110 19102 XOR\n2 1 19139 19102 19109 XOR\n2 1 19106 19109 19190 XOR\n2 1 19152 19105 19188 XOR\n2 1 19102 19103 19186 XOR\n2 1 19187 19224 19185 AND\n2 1 19194 19223 19184 AND\n2 1 19197 367 19183 AND\n2 1 19183 19185 19165 XOR\n2 1 19188 19218 19182 AND\n2 1 19191 19230 19181 AND\n2 1 19201 19220 19180 AND\n2 1 19180 19181 19119 XOR\n2 1 19189 19221 19179 AND\n2 1 19186 19219 19178 AND\n2 1 19178 19181 19134 XOR\n1 1 19134 19131 INV\n2 1 19178 19179 19130 XOR\n2 1 19190 19222 19177 AND\n2 1 19187 19228 19176 AND\n2 1 19194 19225 19175 AND\n2 1 19197 19229 19174 AND\n2 1 19188 19233 19173 AND\n2 1 19173 19177 19150 XOR\n2 1 19182 19173 19135 XOR\n1 1 19150 19128 INV\n2 1 19191 19226 19172 AND\n2 1 19180 19172 19137 XOR\n2 1 19201 19227 19171 AND\n2 1 19128 19171 19127 XOR\n2 1 19127 19165 19123 XOR\n",
"2 1 19189 19232 19170 AND\n2 1 19170 19123 19126 XOR\n2 1 19186 19234 19169 AND\n2 1 19169 19170 19164 XOR\n2 1 19175 19164 19146 XOR\n2 1 19176 19146 19147 XOR\n2 1 19184 19147 19151 XOR\n2 1 19185 19151 19156 XOR\n2 1 19137 19164 19133 XOR\n2 1 19165 19133 19136 XOR\n2 1 19135 19136 19238 XOR\n2 1 19128 19133 19132 XOR\n2 1 19131 19132 19237 XOR\n2 1 19156 19130 19236 XOR\n2 1 19146 19123 19122 XOR\n2 1 19183 19151 19120 XOR\n2 1 19119 19120 36562 XOR\n2 1 36562 260 900 XOR\n2 1 292 900 932 XOR\n2 1 324 932 964 XOR\n2 1 356 964 996 XOR\n2 1 19190 19231 19168 AND\n2 1 19179 19168 19129 XOR\n1 1 19129 19125 INV\n2 1 19125 19126 19235 XOR\n1 1 19238 36559 INV\n2 1 36559 263 903 XOR\n2 1 295 903 935 XOR\n2 1 327 935 967 XOR\n2 1 359 967 999 XOR\n1 1 19237 36560 INV\n2 1 36560 262 902 XOR\n2 1 294 902 934 XOR\n2 1 326 934 966 XOR\n2 1 358 966 998 XOR\n2 1 998 996 11894 XOR\n1 1 19236 36565 INV\n2 1 36565 257 897 XOR\n2 1 289 897 929 XOR\n2 1 321 929 961 XOR\n2 1 353 961 993 XOR\n2 1 999 993 11901 XOR\n1 1 19235 36564 INV\n2 1 36564 258 898 XOR\n2 1 290 898 930 XOR\n2 1 322 930 962 XOR\n2 1 354 962 994 XOR\n2 1 994 11901 11987 XOR\n2 1 998 11987 11983 XOR\n2 1 11987 11983 11970 AND\n2 1 19181 19182 32691 XOR\n2 1 19178 32691 19158 XOR\n2 1 19179 19158 19118 XOR\n2 1 19147 19118 36566 XOR\n2 1 36566 256 896 XOR\n2 1 288 896 928 XOR\n2 1 320 928 960 XOR\n2 1 352 960 992 XOR\n2 1 992 998 11990 XOR\n2 1 19174 19158 19124 XOR\n1 1 19124 19121 INV\n2 1 19121 19122 36561 XOR\n2 1 36561 261 1544 XOR\n2 1 293 1544 1545 XOR\n1 1 1545 933 INV\n1 1 1544 901 INV\n2 1 325 1545 1546 XOR\n1 1 1546 965 INV\n2 1 357 1546 1547 XOR\n1 1 1547 997 INV\n2 1 996 997 11871 XOR\n2 1 992 997 11988 XOR\n2 1 997 11894 11896 XOR\n2 1 998 997 11912 XOR\n2 1 993 11896 11978 XOR\n2 1 11901 11896 11977 XOR\n2 1 994 11896 11975 XOR\n2 1 994 992 11895 XOR\n2 1 11895 11901 11984 XOR\n2 1 11912 11984 11982 XOR\n2 1 11990 11975 11971 AND\n2 1 11971 11895 11899 XOR\n2 1 11984 11977 11969 AND\n2 1 32691 19156 36563 XOR\n2 1 36563 259 899 XOR\n2 1 291 899 931 XOR\n2 1 323 931 963 XOR\n2 1 355 963 995 XOR\n2 1 995 993 11897 XOR\n2 1 995 992 11989 XOR\n2 1 11989 11912 11985 XOR\n2 1 11894 11989 11981 XOR\n2 1 999 11981 11980 XOR\n2 1 997 995 11991 XOR\n2 1 11895 11991 11976 XOR\n2 1 11897 11895 11857 XOR\n2 1 11894 11857 11979 XOR\n2 1 11897 994 11856 XOR\n2 1 999 11856 11986 XOR\n2 1 11981 11985 11974 AND\n2 1 11974 11897 11900 XOR\n2 1 11982 11980 11973 AND\n2 1 11986 999 11972 AND\n2 1 11989 11978 11968 AND\n2 1 11968 11896 11898 XOR\n2 1 11900 11898 11904 XOR\n2 1 992 11904 11910 XOR\n2 1 11991 11976 11967 AND\n2 1 11967 11973 11919 XOR\n2 1 11919 11910 11965 XOR\n2 1 11967 11968 11870 XOR\n2 1 11870 11871 11918 XOR\n2 1 11918 11899 11917 XOR\n2 1 11970 11917 11964 XOR\n2 1 11988 11979 11966 AND\n2 1 11966 11969 11920 XOR\n2 1 11966 11972 11924 XOR\n2 1 11924 11895 11911 XOR\n2 1 11919 11911 11962 XOR\n2 1 11967 11920 11914 XOR\n2 1 11899 11920 11873 XOR\n2 1 11873 11898 11963 XOR\n2 1 11904 11924 11872 XOR\n2 1 994 11872 11916 XOR\n2 1 11970 11914 11869 XOR\n2 1 998 11869 11957 XOR\n2 1 11965 11964 11961 AND\n2 1 11961 11916 11956 XOR\n",
"2 1 11961 11963 11960 XOR\n2 1 11962 11960 11959 AND\n2 1 11959 11916 11958 XOR\n2 1 11959 11971 11864 XOR\n2 1 11864 11900 11860 XOR\n2 1 992 11860 11863 XOR\n2 1 11959 11910 11861 XOR\n2 1 994 11860 11859 XOR\n2 1 11956 11957 11955 AND\n2 1 11955 11963 11954 XOR\n2 1 11961 11955 11953 XOR\n2 1 11955 11914 11868 XOR\n2 1 11955 11972 11867 XOR\n2 1 11867 11969 11862 XOR\n2 1 11862 11863 11946 XOR\n2 1 11963 11953 11952 AND\n2 1 11952 11960 11950 XOR\n2 1 11952 11970 11923 XOR\n2 1 11923 11917 11944 XOR\n2 1 998 11923 11905 XOR\n2 1 11905 11868 11951 XOR\n2 1 11958 11950 11949 AND\n2 1 11949 11919 11909 XOR\n2 1 11909 11911 11948 XOR\n2 1 11949 11973 11866 XOR\n2 1 11905 11866 11858 XOR\n2 1 11895 11858 11865 XOR\n2 1 11862 11865 11947 XOR\n2 1 11909 11861 11945 XOR\n2 1 11858 11859 11943 XOR\n2 1 11944 11981 11942 AND\n2 1 11951 11980 11941 AND\n2 1 11954 999 11940 AND\n2 1 11940 11942 11922 XOR\n2 1 11945 11975 11939 AND\n2 1 11948 11987 11938 AND\n2 1 11938 11939 11907 XOR\n2 1 11958 11977 11937 AND\n2 1 11937 11938 11875 XOR\n2 1 11946 11978 11936 AND\n2 1 11943 11976 11935 AND\n2 1 11935 11907 11915 XOR\n2 1 11935 11938 11890 XOR\n1 1 11890 11887 INV\n2 1 11935 11936 11886 XOR\n2 1 11936 11915 11874 XOR\n2 1 11947 11979 11934 AND\n2 1 11944 11985 11933 AND\n2 1 11951 11982 11932 AND\n2 1 11954 11986 11931 AND\n2 1 11931 11915 11880 XOR\n1 1 11880 11877 INV\n2 1 11945 11990 11930 AND\n2 1 11930 11934 11906 XOR\n2 1 11939 11930 11891 XOR\n1 1 11906 11884 INV\n2 1 11948 11983 11929 AND\n2 1 11937 11929 11893 XOR\n2 1 11958 11984 11928 AND\n2 1 11884 11928 11883 XOR\n2 1 11883 11922 11879 XOR\n2 1 11946 11989 11927 AND\n2 1 11927 11879 11882 XOR\n2 1 11943 11991 11926 AND\n2 1 11926 11927 11921 XOR\n2 1 11932 11921 11902 XOR\n2 1 11933 11902 11903 XOR\n2 1 11941 11903 11908 XOR\n2 1 11942 11908 11913 XOR\n2 1 11907 11913 36571 XOR\n2 1 11893 11921 11889 XOR\n2 1 11922 11889 11892 XOR\n2 1 11891 11892 11995 XOR\n2 1 11884 11889 11888 XOR\n2 1 11887 11888 11994 XOR\n2 1 11913 11886 11993 XOR\n2 1 11902 11879 11878 XOR\n2 1 11877 11878 36569 XOR\n2 1 11940 11908 11876 XOR\n2 1 11875 11876 36570 XOR\n2 1 11903 11874 36574 XOR\n2 1 11947 11988 11925 AND\n2 1 11936 11925 11885 XOR\n1 1 11885 11881 INV\n2 1 11881 11882 11992 XOR\n1 1 11995 36567 INV\n1 1 11994 36568 INV\n1 1 11993 36573 INV\n1 1 11992 36572 INV\n2 1 36570 924 796 XOR\n2 1 36572 922 794 XOR\n2 1 36567 927 799 XOR\n2 1 956 796 828 XOR\n2 1 988 828 860 XOR\n2 1 1020 860 892 XOR\n2 1 959 799 831 XOR\n2 1 991 831 863 XOR\n2 1 36573 921 793 XOR\n2 1 953 793 825 XOR\n2 1 985 825 857 XOR\n2 1 1023 863 895 XOR\n2 1 1017 857 889 XOR\n2 1 36568 926 798 XOR\n2 1 958 798 830 XOR\n2 1 990 830 862 XOR\n2 1 1022 862 894 XOR\n2 1 954 794 826 XOR\n2 1 986 826 858 XOR\n2 1 1018 858 890 XOR\n2 1 894 892 21501 XOR\n2 1 895 889 21508 XOR\n2 1 890 21508 21593 XOR\n2 1 894 21593 21589 XOR\n2 1 21593 21589 21576 AND\n2 1 24748 24749 32724 XOR\n2 1 24745 32724 24725 XOR\n2 1 24746 24725 24685 XOR\n2 1 24714 24685 36510 XOR\n2 1 24741 24725 24691 XOR\n1 1 24691 24688 INV\n2 1 24688 24689 36505 XOR\n2 1 32724 24723 36507 XOR\n2 1 24887 24888 32725 XOR\n2 1 32725 24862 36475 XOR\n2 1 36475 100 411 XOR\n2 1 68 411 443 XOR\n2 1 36 443 475 XOR\n2 1 34698 475 33418 XOR\n",
"2 1 4 475 507 XOR\n2 1 507 505 13157 XOR\n2 1 34666 507 33386 XOR\n2 1 13157 506 13116 XOR\n2 1 511 13116 13246 XOR\n2 1 13246 511 13232 AND\n2 1 36507 411 283 XOR\n2 1 36539 283 923 XOR\n2 1 443 283 315 XOR\n2 1 475 315 347 XOR\n2 1 507 347 379 XOR\n2 1 315 923 955 XOR\n2 1 379 377 13017 XOR\n2 1 13017 378 12976 XOR\n2 1 383 12976 13106 XOR\n2 1 13106 383 13092 AND\n2 1 347 955 987 XOR\n2 1 379 987 1019 XOR\n2 1 36571 923 795 XOR\n2 1 955 795 827 XOR\n2 1 987 827 859 XOR\n2 1 1019 859 891 XOR\n2 1 1019 1017 19002 XOR\n2 1 19002 1018 18961 XOR\n2 1 1023 18961 19090 XOR\n2 1 19090 1023 19076 AND\n2 1 891 889 21504 XOR\n2 1 21504 890 21463 XOR\n2 1 895 21463 21592 XOR\n2 1 21592 895 21578 AND\n2 1 24884 32725 24864 XOR\n2 1 24880 24864 24830 XOR\n1 1 24830 24827 INV\n2 1 24827 24828 36473 XOR\n2 1 36473 98 413 XOR\n2 1 66 413 445 XOR\n2 1 34 445 477 XOR\n2 1 2 477 509 XOR\n2 1 36505 413 285 XOR\n2 1 445 285 317 XOR\n2 1 477 317 349 XOR\n2 1 509 349 381 XOR\n2 1 36537 285 925 XOR\n2 1 317 925 957 XOR\n2 1 349 957 989 XOR\n2 1 381 989 1021 XOR\n2 1 381 13014 13016 XOR\n2 1 377 13016 13098 XOR\n2 1 378 13016 13095 XOR\n2 1 13021 13016 13097 XOR\n2 1 382 381 13032 XOR\n2 1 381 379 13111 XOR\n2 1 380 381 12991 XOR\n2 1 509 13154 13156 XOR\n2 1 505 13156 13238 XOR\n2 1 506 13156 13235 XOR\n2 1 13161 13156 13237 XOR\n2 1 510 509 13172 XOR\n2 1 509 507 13251 XOR\n2 1 508 509 13131 XOR\n2 1 36569 925 797 XOR\n2 1 957 797 829 XOR\n2 1 989 829 861 XOR\n2 1 1021 861 893 XOR\n2 1 1021 18999 19001 XOR\n2 1 1017 19001 19082 XOR\n2 1 1018 19001 19079 XOR\n2 1 19006 19001 19081 XOR\n2 1 1022 1021 19016 XOR\n2 1 1021 1019 19095 XOR\n2 1 1020 1021 18976 XOR\n2 1 893 21501 21503 XOR\n2 1 889 21503 21584 XOR\n2 1 890 21503 21581 XOR\n2 1 21508 21503 21583 XOR\n2 1 894 893 21518 XOR\n2 1 893 891 21597 XOR\n2 1 892 893 21478 XOR\n2 1 24885 24864 24824 XOR\n2 1 24853 24824 36478 XOR\n2 1 36478 103 408 XOR\n2 1 36510 408 280 XOR\n2 1 71 408 440 XOR\n2 1 39 440 472 XOR\n2 1 7 472 504 XOR\n2 1 440 280 312 XOR\n2 1 472 312 344 XOR\n2 1 504 344 376 XOR\n2 1 36542 280 920 XOR\n2 1 312 920 952 XOR\n2 1 378 376 13015 XOR\n2 1 13015 13111 13096 XOR\n2 1 379 376 13109 XOR\n2 1 13109 13032 13105 XOR\n2 1 13015 13021 13104 XOR\n2 1 13032 13104 13102 XOR\n2 1 13014 13109 13101 XOR\n2 1 383 13101 13100 XOR\n2 1 13017 13015 12977 XOR\n2 1 13014 12977 13099 XOR\n2 1 376 382 13110 XOR\n2 1 376 381 13108 XOR\n2 1 13101 13105 13094 AND\n2 1 13094 13017 13020 XOR\n2 1 13102 13100 13093 AND\n2 1 13110 13095 13091 AND\n2 1 13091 13015 13019 XOR\n2 1 13104 13097 13089 AND\n2 1 13109 13098 13088 AND\n2 1 13088 13016 13018 XOR\n2 1 13020 13018 13024 XOR\n2 1 376 13024 13030 XOR\n2 1 13111 13096 13087 AND\n2 1 13087 13093 13039 XOR\n2 1 13039 13030 13085 XOR\n2 1 13087 13088 12990 XOR\n2 1 12990 12991 13038 XOR\n2 1 13038 13019 13037 XOR\n2 1 13090 13037 13084 XOR\n2 1 13108 13099 13086 AND\n2 1 13086 13089 13040 XOR\n2 1 13086 13092 13044 XOR\n2 1 13044 13015 13031 XOR\n2 1 13039 13031 13082 XOR\n2 1 13087 13040 13034 XOR\n2 1 13019 13040 12993 XOR\n2 1 12993 13018 13083 XOR\n2 1 13024 13044 12992 XOR\n",
"2 1 378 12992 13036 XOR\n2 1 13090 13034 12989 XOR\n2 1 382 12989 13077 XOR\n2 1 13085 13084 13081 AND\n2 1 13081 13036 13076 XOR\n2 1 13081 13083 13080 XOR\n2 1 13082 13080 13079 AND\n2 1 13079 13036 13078 XOR\n2 1 13079 13091 12984 XOR\n2 1 12984 13020 12980 XOR\n2 1 376 12980 12983 XOR\n2 1 13079 13030 12981 XOR\n2 1 378 12980 12979 XOR\n2 1 13076 13077 13075 AND\n2 1 13075 13083 13074 XOR\n2 1 13081 13075 13073 XOR\n2 1 13075 13034 12988 XOR\n2 1 13075 13092 12987 XOR\n2 1 12987 13089 12982 XOR\n2 1 12982 12983 13066 XOR\n2 1 13083 13073 13072 AND\n2 1 13072 13080 13070 XOR\n2 1 13072 13090 13043 XOR\n2 1 13043 13037 13064 XOR\n2 1 382 13043 13025 XOR\n2 1 13025 12988 13071 XOR\n2 1 13078 13070 13069 AND\n2 1 13069 13039 13029 XOR\n2 1 13029 13031 13068 XOR\n2 1 13069 13093 12986 XOR\n2 1 13025 12986 12978 XOR\n2 1 13015 12978 12985 XOR\n2 1 12982 12985 13067 XOR\n2 1 13029 12981 13065 XOR\n2 1 12978 12979 13063 XOR\n2 1 13064 13101 13062 AND\n2 1 13071 13100 13061 AND\n2 1 13074 383 13060 AND\n2 1 13060 13062 13042 XOR\n2 1 13065 13095 13059 AND\n2 1 13068 13107 13058 AND\n2 1 13058 13059 13027 XOR\n2 1 13078 13097 13057 AND\n2 1 13057 13058 12995 XOR\n2 1 13066 13098 13056 AND\n2 1 13063 13096 13055 AND\n2 1 13055 13027 13035 XOR\n2 1 13055 13058 13010 XOR\n1 1 13010 13007 INV\n2 1 13055 13056 13006 XOR\n2 1 13056 13035 12994 XOR\n2 1 13067 13099 13054 AND\n2 1 13064 13105 13053 AND\n2 1 13071 13102 13052 AND\n2 1 13074 13106 13051 AND\n2 1 13051 13035 13000 XOR\n1 1 13000 12997 INV\n2 1 13065 13110 13050 AND\n2 1 13050 13054 13026 XOR\n2 1 13059 13050 13011 XOR\n1 1 13026 13004 INV\n2 1 13068 13103 13049 AND\n2 1 13057 13049 13013 XOR\n2 1 13078 13104 13048 AND\n2 1 13004 13048 13003 XOR\n2 1 13003 13042 12999 XOR\n2 1 13066 13109 13047 AND\n2 1 13047 12999 13002 XOR\n2 1 13063 13111 13046 AND\n2 1 13046 13047 13041 XOR\n2 1 13052 13041 13022 XOR\n2 1 13053 13022 13023 XOR\n2 1 13061 13023 13028 XOR\n2 1 13062 13028 13033 XOR\n2 1 13027 13033 36547 XOR\n2 1 13013 13041 13009 XOR\n2 1 13042 13009 13012 XOR\n2 1 13011 13012 13115 XOR\n2 1 13004 13009 13008 XOR\n2 1 13007 13008 13114 XOR\n2 1 13033 13006 13113 XOR\n2 1 13022 12999 12998 XOR\n2 1 12997 12998 36545 XOR\n2 1 13060 13028 12996 XOR\n2 1 12995 12996 36546 XOR\n2 1 13023 12994 36550 XOR\n2 1 13067 13108 13045 AND\n2 1 13056 13045 13005 XOR\n1 1 13005 13001 INV\n2 1 13001 13002 13112 XOR\n1 1 13115 36543 INV\n1 1 13114 36544 INV\n1 1 13113 36549 INV\n1 1 13112 36548 INV\n2 1 506 504 13155 XOR\n2 1 13155 13251 13236 XOR\n2 1 507 504 13249 XOR\n2 1 13249 13172 13245 XOR\n2 1 13155 13161 13244 XOR\n2 1 13172 13244 13242 XOR\n2 1 13154 13249 13241 XOR\n2 1 511 13241 13240 XOR\n2 1 13157 13155 13117 XOR\n2 1 13154 13117 13239 XOR\n2 1 504 510 13250 XOR\n2 1 504 509 13248 XOR\n2 1 13241 13245 13234 AND\n2 1 13234 13157 13160 XOR\n2 1 13242 13240 13233 AND\n2 1 13250 13235 13231 AND\n2 1 13231 13155 13159 XOR\n2 1 13244 13237 13229 AND\n2 1 13249 13238 13228 AND\n2 1 13228 13156 13158 XOR\n2 1 13160 13158 13164 XOR\n2 1 504 13164 13170 XOR\n2 1 13251 13236 13227 AND\n2 1 13227 13233 13179 XOR\n2 1 13179 13170 13225 XOR\n2 1 13227 13228 13130 XOR\n2 1 13130 13131 13178 XOR\n2 1 13178 13159 13177 XOR\n2 1 13230 13177 13224 XOR\n2 1 13248 13239 13226 AND\n2 1 13226 13229 13180 XOR\n2 1 13226 13232 13184 XOR\n2 1 13184 13155 13171 XOR\n2 1 13179 13171 13222 XOR\n",
"2 1 13227 13180 13174 XOR\n2 1 13159 13180 13133 XOR\n2 1 13133 13158 13223 XOR\n2 1 13164 13184 13132 XOR\n2 1 506 13132 13176 XOR\n2 1 13230 13174 13129 XOR\n2 1 510 13129 13217 XOR\n2 1 13225 13224 13221 AND\n2 1 13221 13176 13216 XOR\n2 1 13221 13223 13220 XOR\n2 1 13222 13220 13219 AND\n2 1 13219 13176 13218 XOR\n2 1 13219 13231 13124 XOR\n2 1 13124 13160 13120 XOR\n2 1 504 13120 13123 XOR\n2 1 13219 13170 13121 XOR\n2 1 506 13120 13119 XOR\n2 1 13216 13217 13215 AND\n2 1 13215 13223 13214 XOR\n2 1 13221 13215 13213 XOR\n2 1 13215 13174 13128 XOR\n2 1 13215 13232 13127 XOR\n2 1 13127 13229 13122 XOR\n2 1 13122 13123 13206 XOR\n2 1 13223 13213 13212 AND\n2 1 13212 13220 13210 XOR\n2 1 13212 13230 13183 XOR\n2 1 13183 13177 13204 XOR\n2 1 510 13183 13165 XOR\n2 1 13165 13128 13211 XOR\n2 1 13218 13210 13209 AND\n2 1 13209 13179 13169 XOR\n2 1 13169 13171 13208 XOR\n2 1 13209 13233 13126 XOR\n2 1 13165 13126 13118 XOR\n2 1 13155 13118 13125 XOR\n2 1 13122 13125 13207 XOR\n2 1 13169 13121 13205 XOR\n2 1 13118 13119 13203 XOR\n2 1 13204 13241 13202 AND\n2 1 13211 13240 13201 AND\n2 1 13214 511 13200 AND\n2 1 13200 13202 13182 XOR\n2 1 13205 13235 13199 AND\n2 1 13208 13247 13198 AND\n2 1 13198 13199 13167 XOR\n2 1 13218 13237 13197 AND\n2 1 13197 13198 13135 XOR\n2 1 13206 13238 13196 AND\n2 1 13203 13236 13195 AND\n2 1 13195 13167 13175 XOR\n2 1 13195 13198 13150 XOR\n1 1 13150 13147 INV\n2 1 13195 13196 13146 XOR\n2 1 13196 13175 13134 XOR\n2 1 13207 13239 13194 AND\n2 1 13204 13245 13193 AND\n2 1 13211 13242 13192 AND\n2 1 13214 13246 13191 AND\n2 1 13191 13175 13140 XOR\n1 1 13140 13137 INV\n2 1 13205 13250 13190 AND\n2 1 13190 13194 13166 XOR\n2 1 13199 13190 13151 XOR\n1 1 13166 13144 INV\n2 1 13208 13243 13189 AND\n2 1 13197 13189 13153 XOR\n2 1 13218 13244 13188 AND\n2 1 13144 13188 13143 XOR\n2 1 13143 13182 13139 XOR\n2 1 13206 13249 13187 AND\n2 1 13187 13139 13142 XOR\n2 1 13203 13251 13186 AND\n2 1 13186 13187 13181 XOR\n2 1 13192 13181 13162 XOR\n2 1 13193 13162 13163 XOR\n2 1 13201 13163 13168 XOR\n2 1 13202 13168 13173 XOR\n2 1 13167 13173 36515 XOR\n2 1 36515 403 275 XOR\n2 1 435 275 307 XOR\n2 1 467 307 339 XOR\n2 1 499 339 371 XOR\n2 1 36547 275 915 XOR\n2 1 307 915 947 XOR\n2 1 339 947 979 XOR\n2 1 371 979 1011 XOR\n2 1 13153 13181 13149 XOR\n2 1 13182 13149 13152 XOR\n2 1 13151 13152 13255 XOR\n2 1 13144 13149 13148 XOR\n2 1 13147 13148 13254 XOR\n2 1 13173 13146 13253 XOR\n2 1 13162 13139 13138 XOR\n2 1 13137 13138 36513 XOR\n2 1 36513 405 277 XOR\n2 1 437 277 309 XOR\n2 1 469 309 341 XOR\n2 1 501 341 373 XOR\n2 1 36545 277 917 XOR\n2 1 309 917 949 XOR\n2 1 341 949 981 XOR\n2 1 373 981 1013 XOR\n2 1 13200 13168 13136 XOR\n2 1 13135 13136 36514 XOR\n2 1 36514 404 276 XOR\n2 1 436 276 308 XOR\n2 1 468 308 340 XOR\n2 1 500 340 372 XOR\n2 1 36546 276 916 XOR\n2 1 308 916 948 XOR\n2 1 13163 13134 36518 XOR\n2 1 36518 400 272 XOR\n2 1 432 272 304 XOR\n2 1 464 304 336 XOR\n2 1 496 336 368 XOR\n2 1 36550 272 912 XOR\n2 1 304 912 944 XOR\n2 1 13207 13248 13185 AND\n2 1 13196 13185 13145 XOR\n1 1 13145 13141 INV\n2 1 13141 13142 13252 XOR\n1 1 13255 36511 INV\n2 1 36511 407 279 XOR\n2 1 439 279 311 XOR\n2 1 471 311 343 XOR\n2 1 503 343 375 XOR\n2 1 36543 279 919 XOR\n",
"2 1 311 919 951 XOR\n1 1 13254 36512 INV\n2 1 36512 406 278 XOR\n2 1 438 278 310 XOR\n2 1 470 310 342 XOR\n2 1 502 342 374 XOR\n2 1 36544 278 918 XOR\n2 1 310 918 950 XOR\n2 1 342 950 982 XOR\n2 1 374 982 1014 XOR\n1 1 13253 36517 INV\n2 1 36517 401 273 XOR\n2 1 36549 273 913 XOR\n2 1 433 273 305 XOR\n2 1 465 305 337 XOR\n2 1 497 337 369 XOR\n2 1 305 913 945 XOR\n2 1 337 945 977 XOR\n2 1 369 977 1009 XOR\n1 1 13252 36516 INV\n2 1 36516 402 274 XOR\n2 1 434 274 306 XOR\n2 1 36548 274 914 XOR\n2 1 306 914 946 XOR\n2 1 466 306 338 XOR\n2 1 498 338 370 XOR\n2 1 338 946 978 XOR\n2 1 370 978 1010 XOR\n2 1 336 944 976 XOR\n2 1 368 976 1008 XOR\n2 1 343 951 983 XOR\n2 1 375 983 1015 XOR\n2 1 340 948 980 XOR\n2 1 372 980 1012 XOR\n2 1 344 952 984 XOR\n2 1 376 984 1016 XOR\n2 1 36574 920 792 XOR\n2 1 952 792 824 XOR\n2 1 984 824 856 XOR\n2 1 1016 856 888 XOR\n2 1 1014 1012 15941 XOR\n2 1 1010 1008 15942 XOR\n2 1 1013 15941 15943 XOR\n2 1 1009 15943 16024 XOR\n2 1 1010 15943 16021 XOR\n2 1 1011 1009 15944 XOR\n2 1 1015 1009 15948 XOR\n2 1 15948 15943 16023 XOR\n2 1 1011 1008 16035 XOR\n2 1 15942 15948 16030 XOR\n2 1 15941 16035 16027 XOR\n2 1 1015 16027 16026 XOR\n2 1 1014 1013 15958 XOR\n2 1 15958 16030 16028 XOR\n2 1 16035 15958 16031 XOR\n2 1 1013 1011 16037 XOR\n2 1 15942 16037 16022 XOR\n2 1 1010 15948 16033 XOR\n2 1 1014 16033 16029 XOR\n2 1 1012 1013 15918 XOR\n2 1 15944 15942 15904 XOR\n2 1 15941 15904 16025 XOR\n2 1 15944 1010 15903 XOR\n2 1 1015 15903 16032 XOR\n2 1 1008 1014 16036 XOR\n2 1 1008 1013 16034 XOR\n2 1 16027 16031 16020 AND\n2 1 16020 15944 15947 XOR\n2 1 16028 16026 16019 AND\n2 1 16032 1015 16018 AND\n2 1 16036 16021 16017 AND\n2 1 16017 15942 15946 XOR\n2 1 16033 16029 16016 AND\n2 1 16030 16023 16015 AND\n2 1 16035 16024 16014 AND\n2 1 16014 15943 15945 XOR\n2 1 15947 15945 15951 XOR\n2 1 1008 15951 15956 XOR\n2 1 16037 16022 16013 AND\n2 1 16013 16019 15965 XOR\n2 1 15965 15956 16011 XOR\n2 1 16013 16014 15917 XOR\n2 1 15917 15918 15964 XOR\n2 1 15964 15946 15963 XOR\n2 1 16016 15963 16010 XOR\n2 1 16034 16025 16012 AND\n2 1 16012 16015 15966 XOR\n2 1 16012 16018 15970 XOR\n2 1 15970 15942 15957 XOR\n2 1 15965 15957 16008 XOR\n2 1 16013 15966 15960 XOR\n2 1 15946 15966 15920 XOR\n2 1 15920 15945 16009 XOR\n2 1 15951 15970 15919 XOR\n2 1 1010 15919 15962 XOR\n2 1 16016 15960 15916 XOR\n2 1 1014 15916 16003 XOR\n2 1 16011 16010 16007 AND\n2 1 16007 15962 16002 XOR\n2 1 16007 16009 16006 XOR\n2 1 16008 16006 16005 AND\n2 1 16005 15962 16004 XOR\n2 1 16005 16017 15911 XOR\n2 1 15911 15947 15907 XOR\n2 1 1008 15907 15910 XOR\n2 1 16005 15956 15908 XOR\n2 1 1010 15907 15906 XOR\n2 1 16002 16003 16001 AND\n2 1 16001 16009 16000 XOR\n2 1 16007 16001 15999 XOR\n2 1 16001 15960 15915 XOR\n2 1 16001 16018 15914 XOR\n2 1 15914 16015 15909 XOR\n2 1 15909 15910 15992 XOR\n2 1 16009 15999 15998 AND\n2 1 15998 16006 15996 XOR\n2 1 15998 16016 15969 XOR\n2 1 15969 15963 15990 XOR\n2 1 1014 15969 15952 XOR\n2 1 15952 15915 15997 XOR\n2 1 16004 15996 15995 AND\n2 1 15995 15965 15955 XOR\n2 1 15955 15957 15994 XOR\n2 1 15995 16019 15913 XOR\n2 1 15952 15913 15905 XOR\n2 1 15942 15905 15912 XOR\n2 1 15909 15912 15993 XOR\n2 1 15955 15908 15991 XOR\n",
"2 1 15905 15906 15989 XOR\n2 1 15990 16027 15988 AND\n2 1 15997 16026 15987 AND\n2 1 16000 1015 15986 AND\n2 1 15986 15988 15968 XOR\n2 1 15991 16021 15985 AND\n2 1 15994 16033 15984 AND\n2 1 16004 16023 15983 AND\n2 1 15983 15984 15922 XOR\n2 1 15992 16024 15982 AND\n2 1 15989 16022 15981 AND\n2 1 15981 15984 15937 XOR\n1 1 15937 15934 INV\n2 1 15981 15982 15933 XOR\n2 1 15993 16025 15980 AND\n2 1 15990 16031 15979 AND\n2 1 15997 16028 15978 AND\n2 1 16000 16032 15977 AND\n2 1 15991 16036 15976 AND\n2 1 15976 15980 15953 XOR\n2 1 15985 15976 15938 XOR\n1 1 15953 15931 INV\n2 1 15994 16029 15975 AND\n2 1 15983 15975 15940 XOR\n2 1 16004 16030 15974 AND\n2 1 15931 15974 15930 XOR\n2 1 15930 15968 15926 XOR\n2 1 15992 16035 15973 AND\n2 1 15973 15926 15929 XOR\n2 1 15989 16037 15972 AND\n2 1 15972 15973 15967 XOR\n2 1 15978 15967 15949 XOR\n2 1 15979 15949 15950 XOR\n2 1 15987 15950 15954 XOR\n2 1 15988 15954 15959 XOR\n2 1 15940 15967 15936 XOR\n2 1 15968 15936 15939 XOR\n2 1 15938 15939 16041 XOR\n2 1 15931 15936 15935 XOR\n2 1 15934 15935 16040 XOR\n2 1 15959 15933 16039 XOR\n2 1 15949 15926 15925 XOR\n2 1 15986 15954 15923 XOR\n2 1 15922 15923 36586 XOR\n2 1 15993 16034 15971 AND\n2 1 15982 15971 15932 XOR\n1 1 15932 15928 INV\n2 1 15928 15929 16038 XOR\n1 1 16041 36583 INV\n1 1 16040 36584 INV\n1 1 16039 36589 INV\n1 1 16038 36588 INV\n2 1 374 372 16080 XOR\n2 1 370 368 16081 XOR\n2 1 373 16080 16082 XOR\n2 1 369 16082 16163 XOR\n2 1 370 16082 16160 XOR\n2 1 371 369 16083 XOR\n2 1 375 369 16087 XOR\n2 1 16087 16082 16162 XOR\n2 1 371 368 16174 XOR\n2 1 16081 16087 16169 XOR\n2 1 16080 16174 16166 XOR\n2 1 375 16166 16165 XOR\n2 1 374 373 16097 XOR\n2 1 16097 16169 16167 XOR\n2 1 16174 16097 16170 XOR\n2 1 373 371 16176 XOR\n2 1 16081 16176 16161 XOR\n2 1 370 16087 16172 XOR\n2 1 374 16172 16168 XOR\n2 1 372 373 16057 XOR\n2 1 16083 16081 16043 XOR\n2 1 16080 16043 16164 XOR\n2 1 16083 370 16042 XOR\n2 1 375 16042 16171 XOR\n2 1 368 374 16175 XOR\n2 1 368 373 16173 XOR\n2 1 16166 16170 16159 AND\n2 1 16159 16083 16086 XOR\n2 1 16167 16165 16158 AND\n2 1 16171 375 16157 AND\n2 1 16175 16160 16156 AND\n2 1 16156 16081 16085 XOR\n2 1 16172 16168 16155 AND\n2 1 16169 16162 16154 AND\n2 1 16174 16163 16153 AND\n2 1 16153 16082 16084 XOR\n2 1 16086 16084 16090 XOR\n2 1 368 16090 16095 XOR\n2 1 16176 16161 16152 AND\n2 1 16152 16158 16104 XOR\n2 1 16104 16095 16150 XOR\n2 1 16152 16153 16056 XOR\n2 1 16056 16057 16103 XOR\n2 1 16103 16085 16102 XOR\n2 1 16155 16102 16149 XOR\n2 1 16173 16164 16151 AND\n2 1 16151 16154 16105 XOR\n2 1 16151 16157 16109 XOR\n2 1 16109 16081 16096 XOR\n2 1 16104 16096 16147 XOR\n2 1 16152 16105 16099 XOR\n2 1 16085 16105 16059 XOR\n2 1 16059 16084 16148 XOR\n2 1 16090 16109 16058 XOR\n2 1 370 16058 16101 XOR\n2 1 16155 16099 16055 XOR\n2 1 374 16055 16142 XOR\n2 1 16150 16149 16146 AND\n2 1 16146 16101 16141 XOR\n2 1 16146 16148 16145 XOR\n2 1 16147 16145 16144 AND\n2 1 16144 16101 16143 XOR\n2 1 16144 16156 16050 XOR\n2 1 16050 16086 16046 XOR\n2 1 368 16046 16049 XOR\n2 1 16144 16095 16047 XOR\n2 1 370 16046 16045 XOR\n2 1 16141 16142 16140 AND\n2 1 16140 16148 16139 XOR\n2 1 16146 16140 16138 XOR\n2 1 16140 16099 16054 XOR\n2 1 16140 16157 16053 XOR\n2 1 16053 16154 16048 XOR\n2 1 16048 16049 16131 XOR\n2 1 16148 16138 16137 AND\n2 1 16137 16145 16135 XOR\n",
"2 1 16137 16155 16108 XOR\n2 1 16108 16102 16129 XOR\n2 1 374 16108 16091 XOR\n2 1 16091 16054 16136 XOR\n2 1 16143 16135 16134 AND\n2 1 16134 16104 16094 XOR\n2 1 16094 16096 16133 XOR\n2 1 16134 16158 16052 XOR\n2 1 16091 16052 16044 XOR\n2 1 16081 16044 16051 XOR\n2 1 16048 16051 16132 XOR\n2 1 16094 16047 16130 XOR\n2 1 16044 16045 16128 XOR\n2 1 16129 16166 16127 AND\n2 1 16136 16165 16126 AND\n2 1 16139 375 16125 AND\n2 1 16125 16127 16107 XOR\n2 1 16130 16160 16124 AND\n2 1 16133 16172 16123 AND\n2 1 16143 16162 16122 AND\n2 1 16122 16123 16061 XOR\n2 1 16131 16163 16121 AND\n2 1 16128 16161 16120 AND\n2 1 16120 16123 16076 XOR\n1 1 16076 16073 INV\n2 1 16120 16121 16072 XOR\n2 1 16132 16164 16119 AND\n2 1 16129 16170 16118 AND\n2 1 16136 16167 16117 AND\n2 1 16139 16171 16116 AND\n2 1 16130 16175 16115 AND\n2 1 16115 16119 16092 XOR\n2 1 16124 16115 16077 XOR\n1 1 16092 16070 INV\n2 1 16133 16168 16114 AND\n2 1 16122 16114 16079 XOR\n2 1 16143 16169 16113 AND\n2 1 16070 16113 16069 XOR\n2 1 16069 16107 16065 XOR\n2 1 16131 16174 16112 AND\n2 1 16112 16065 16068 XOR\n2 1 16128 16176 16111 AND\n2 1 16111 16112 16106 XOR\n2 1 16117 16106 16088 XOR\n2 1 16118 16088 16089 XOR\n2 1 16126 16089 16093 XOR\n2 1 16127 16093 16098 XOR\n2 1 16079 16106 16075 XOR\n2 1 16107 16075 16078 XOR\n2 1 16077 16078 16180 XOR\n2 1 16070 16075 16074 XOR\n2 1 16073 16074 16179 XOR\n2 1 16098 16072 16178 XOR\n2 1 16088 16065 16064 XOR\n2 1 16125 16093 16062 XOR\n2 1 16061 16062 36554 XOR\n2 1 36554 268 908 XOR\n2 1 300 908 940 XOR\n2 1 332 940 972 XOR\n2 1 364 972 1004 XOR\n2 1 36586 908 780 XOR\n2 1 940 780 812 XOR\n2 1 972 812 844 XOR\n2 1 1004 844 876 XOR\n2 1 16132 16173 16110 AND\n2 1 16121 16110 16071 XOR\n1 1 16071 16067 INV\n2 1 16067 16068 16177 XOR\n1 1 16180 36551 INV\n2 1 36551 271 911 XOR\n2 1 303 911 943 XOR\n2 1 335 943 975 XOR\n2 1 367 975 1007 XOR\n2 1 36583 911 783 XOR\n2 1 943 783 815 XOR\n2 1 975 815 847 XOR\n2 1 1007 847 879 XOR\n1 1 16179 36552 INV\n2 1 36552 270 910 XOR\n2 1 302 910 942 XOR\n2 1 334 942 974 XOR\n2 1 366 974 1006 XOR\n2 1 36584 910 782 XOR\n2 1 942 782 814 XOR\n2 1 974 814 846 XOR\n2 1 1006 846 878 XOR\n2 1 878 876 12874 XOR\n1 1 16178 36557 INV\n2 1 36557 265 905 XOR\n2 1 297 905 937 XOR\n2 1 36589 905 777 XOR\n2 1 329 937 969 XOR\n2 1 361 969 1001 XOR\n2 1 937 777 809 XOR\n2 1 969 809 841 XOR\n2 1 1001 841 873 XOR\n2 1 879 873 12881 XOR\n1 1 16177 36556 INV\n2 1 36556 266 906 XOR\n2 1 298 906 938 XOR\n2 1 330 938 970 XOR\n2 1 362 970 1002 XOR\n2 1 36588 906 778 XOR\n2 1 938 778 810 XOR\n2 1 970 810 842 XOR\n2 1 1002 842 874 XOR\n2 1 874 12881 12967 XOR\n2 1 878 12967 12963 XOR\n2 1 12967 12963 12950 AND\n2 1 1018 1016 19000 XOR\n2 1 19000 19095 19080 XOR\n2 1 1019 1016 19093 XOR\n2 1 19093 19016 19089 XOR\n2 1 19000 19006 19088 XOR\n2 1 19016 19088 19086 XOR\n2 1 18999 19093 19085 XOR\n2 1 1023 19085 19084 XOR\n2 1 19002 19000 18962 XOR\n2 1 18999 18962 19083 XOR\n2 1 1016 1022 19094 XOR\n2 1 1016 1021 19092 XOR\n2 1 19085 19089 19078 AND\n2 1 19078 19002 19005 XOR\n2 1 19086 19084 19077 AND\n2 1 19094 19079 19075 AND\n2 1 19075 19000 19004 XOR\n2 1 19088 19081 19073 AND\n2 1 19093 19082 19072 AND\n",
"2 1 19072 19001 19003 XOR\n2 1 19005 19003 19009 XOR\n2 1 1016 19009 19014 XOR\n2 1 19095 19080 19071 AND\n2 1 19071 19077 19023 XOR\n2 1 19023 19014 19069 XOR\n2 1 19071 19072 18975 XOR\n2 1 18975 18976 19022 XOR\n2 1 19022 19004 19021 XOR\n2 1 19074 19021 19068 XOR\n2 1 19092 19083 19070 AND\n2 1 19070 19073 19024 XOR\n2 1 19070 19076 19028 XOR\n2 1 19028 19000 19015 XOR\n2 1 19023 19015 19066 XOR\n2 1 19071 19024 19018 XOR\n2 1 19004 19024 18978 XOR\n2 1 18978 19003 19067 XOR\n2 1 19009 19028 18977 XOR\n2 1 1018 18977 19020 XOR\n2 1 19074 19018 18974 XOR\n2 1 1022 18974 19061 XOR\n2 1 19069 19068 19065 AND\n2 1 19065 19020 19060 XOR\n2 1 19065 19067 19064 XOR\n2 1 19066 19064 19063 AND\n2 1 19063 19020 19062 XOR\n2 1 19063 19075 18969 XOR\n2 1 18969 19005 18965 XOR\n2 1 1016 18965 18968 XOR\n2 1 19063 19014 18966 XOR\n2 1 1018 18965 18964 XOR\n2 1 19060 19061 19059 AND\n2 1 19059 19067 19058 XOR\n2 1 19065 19059 19057 XOR\n2 1 19059 19018 18973 XOR\n2 1 19059 19076 18972 XOR\n2 1 18972 19073 18967 XOR\n2 1 18967 18968 19050 XOR\n2 1 19067 19057 19056 AND\n2 1 19056 19064 19054 XOR\n2 1 19056 19074 19027 XOR\n2 1 19027 19021 19048 XOR\n2 1 1022 19027 19010 XOR\n2 1 19010 18973 19055 XOR\n2 1 19062 19054 19053 AND\n2 1 19053 19023 19013 XOR\n2 1 19013 19015 19052 XOR\n2 1 19053 19077 18971 XOR\n2 1 19010 18971 18963 XOR\n2 1 19000 18963 18970 XOR\n2 1 18967 18970 19051 XOR\n2 1 19013 18966 19049 XOR\n2 1 18963 18964 19047 XOR\n2 1 19048 19085 19046 AND\n2 1 19055 19084 19045 AND\n2 1 19058 1023 19044 AND\n2 1 19044 19046 19026 XOR\n2 1 19049 19079 19043 AND\n2 1 19052 19091 19042 AND\n2 1 19062 19081 19041 AND\n2 1 19041 19042 18980 XOR\n2 1 19050 19082 19040 AND\n2 1 19047 19080 19039 AND\n2 1 19039 19042 18995 XOR\n1 1 18995 18992 INV\n2 1 19039 19040 18991 XOR\n2 1 19051 19083 19038 AND\n2 1 19048 19089 19037 AND\n2 1 19055 19086 19036 AND\n2 1 19058 19090 19035 AND\n2 1 19049 19094 19034 AND\n2 1 19034 19038 19011 XOR\n2 1 19043 19034 18996 XOR\n1 1 19011 18989 INV\n2 1 19052 19087 19033 AND\n2 1 19041 19033 18998 XOR\n2 1 19062 19088 19032 AND\n2 1 18989 19032 18988 XOR\n2 1 18988 19026 18984 XOR\n2 1 19050 19093 19031 AND\n2 1 19031 18984 18987 XOR\n2 1 19047 19095 19030 AND\n2 1 19030 19031 19025 XOR\n2 1 19036 19025 19007 XOR\n2 1 19037 19007 19008 XOR\n2 1 19045 19008 19012 XOR\n2 1 19046 19012 19017 XOR\n2 1 18998 19025 18994 XOR\n2 1 19026 18994 18997 XOR\n2 1 18996 18997 19099 XOR\n2 1 18989 18994 18993 XOR\n2 1 18992 18993 19098 XOR\n2 1 19017 18991 19097 XOR\n2 1 19007 18984 18983 XOR\n2 1 19044 19012 18981 XOR\n2 1 18980 18981 36578 XOR\n2 1 36578 916 788 XOR\n2 1 948 788 820 XOR\n2 1 980 820 852 XOR\n2 1 1012 852 884 XOR\n2 1 19051 19092 19029 AND\n2 1 19040 19029 18990 XOR\n1 1 18990 18986 INV\n2 1 18986 18987 19096 XOR\n1 1 19099 36575 INV\n2 1 36575 919 791 XOR\n2 1 951 791 823 XOR\n2 1 983 823 855 XOR\n2 1 1015 855 887 XOR\n1 1 19098 36576 INV\n2 1 36576 918 790 XOR\n2 1 950 790 822 XOR\n2 1 982 822 854 XOR\n2 1 1014 854 886 XOR\n1 1 19097 36581 INV\n2 1 36581 913 785 XOR\n2 1 945 785 817 XOR\n2 1 977 817 849 XOR\n2 1 1009 849 881 XOR\n1 1 19096 36580 INV\n2 1 36580 914 786 XOR\n2 1 946 786 818 XOR\n2 1 978 818 850 XOR\n2 1 1010 850 882 XOR\n2 1 890 888 21502 XOR\n2 1 21502 21597 21582 XOR\n2 1 891 888 21595 XOR\n",
"2 1 21595 21518 21591 XOR\n2 1 21502 21508 21590 XOR\n2 1 21518 21590 21588 XOR\n2 1 21501 21595 21587 XOR\n2 1 895 21587 21586 XOR\n2 1 21504 21502 21464 XOR\n2 1 21501 21464 21585 XOR\n2 1 888 894 21596 XOR\n2 1 888 893 21594 XOR\n2 1 21587 21591 21580 AND\n2 1 21580 21504 21507 XOR\n2 1 21588 21586 21579 AND\n2 1 21596 21581 21577 AND\n2 1 21577 21502 21506 XOR\n2 1 21590 21583 21575 AND\n2 1 21595 21584 21574 AND\n2 1 21574 21503 21505 XOR\n2 1 21507 21505 21511 XOR\n2 1 888 21511 21516 XOR\n2 1 21597 21582 21573 AND\n2 1 21573 21579 21525 XOR\n2 1 21525 21516 21571 XOR\n2 1 21573 21574 21477 XOR\n2 1 21477 21478 21524 XOR\n2 1 21524 21506 21523 XOR\n2 1 21576 21523 21570 XOR\n2 1 21594 21585 21572 AND\n2 1 21572 21575 21526 XOR\n2 1 21572 21578 21530 XOR\n2 1 21530 21502 21517 XOR\n2 1 21525 21517 21568 XOR\n2 1 21573 21526 21520 XOR\n2 1 21506 21526 21480 XOR\n2 1 21480 21505 21569 XOR\n2 1 21511 21530 21479 XOR\n2 1 890 21479 21522 XOR\n2 1 21576 21520 21476 XOR\n2 1 894 21476 21563 XOR\n2 1 21571 21570 21567 AND\n2 1 21567 21522 21562 XOR\n2 1 21567 21569 21566 XOR\n2 1 21568 21566 21565 AND\n2 1 21565 21522 21564 XOR\n2 1 21565 21577 21471 XOR\n2 1 21471 21507 21467 XOR\n2 1 888 21467 21470 XOR\n2 1 21565 21516 21468 XOR\n2 1 890 21467 21466 XOR\n2 1 21562 21563 21561 AND\n2 1 21561 21569 21560 XOR\n2 1 21567 21561 21559 XOR\n2 1 21561 21520 21475 XOR\n2 1 21561 21578 21474 XOR\n2 1 21474 21575 21469 XOR\n2 1 21469 21470 21552 XOR\n2 1 21569 21559 21558 AND\n2 1 21558 21566 21556 XOR\n2 1 21558 21576 21529 XOR\n2 1 21529 21523 21550 XOR\n2 1 894 21529 21512 XOR\n2 1 21512 21475 21557 XOR\n2 1 21564 21556 21555 AND\n2 1 21555 21525 21515 XOR\n2 1 21515 21517 21554 XOR\n2 1 21555 21579 21473 XOR\n2 1 21512 21473 21465 XOR\n2 1 21502 21465 21472 XOR\n2 1 21469 21472 21553 XOR\n2 1 21515 21468 21551 XOR\n2 1 21465 21466 21549 XOR\n2 1 21550 21587 21548 AND\n2 1 21557 21586 21547 AND\n2 1 21560 895 21546 AND\n2 1 21546 21548 21528 XOR\n2 1 21551 21581 21545 AND\n2 1 21554 21593 21544 AND\n2 1 21564 21583 21543 AND\n2 1 21543 21544 21482 XOR\n2 1 21552 21584 21542 AND\n2 1 21549 21582 21541 AND\n2 1 21541 21544 21497 XOR\n1 1 21497 21494 INV\n2 1 21541 21542 21493 XOR\n2 1 21553 21585 21540 AND\n2 1 21550 21591 21539 AND\n2 1 21557 21588 21538 AND\n2 1 21560 21592 21537 AND\n2 1 21551 21596 21536 AND\n2 1 21536 21540 21513 XOR\n2 1 21545 21536 21498 XOR\n1 1 21513 21491 INV\n2 1 21554 21589 21535 AND\n2 1 21543 21535 21500 XOR\n2 1 21564 21590 21534 AND\n2 1 21491 21534 21490 XOR\n2 1 21490 21528 21486 XOR\n2 1 21552 21595 21533 AND\n2 1 21533 21486 21489 XOR\n2 1 21549 21597 21532 AND\n2 1 21532 21533 21527 XOR\n2 1 21538 21527 21509 XOR\n2 1 21539 21509 21510 XOR\n2 1 21547 21510 21514 XOR\n2 1 21548 21514 21519 XOR\n2 1 21500 21527 21496 XOR\n2 1 21528 21496 21499 XOR\n2 1 21498 21499 21601 XOR\n2 1 21491 21496 21495 XOR\n2 1 21494 21495 21600 XOR\n2 1 21519 21493 21599 XOR\n2 1 21509 21486 21485 XOR\n2 1 21546 21514 21483 XOR\n2 1 21482 21483 36610 XOR\n2 1 36610 788 660 XOR\n2 1 820 660 692 XOR\n2 1 852 692 724 XOR\n2 1 884 724 756 XOR\n2 1 21553 21594 21531 AND\n2 1 21542 21531 21492 XOR\n1 1 21492 21488 INV\n2 1 21488 21489 21598 XOR\n1 1 21601 36607 INV\n2 1 36607 791 663 XOR\n2 1 823 663 695 XOR\n2 1 855 695 727 XOR\n2 1 887 727 759 XOR\n1 1 21600 36608 INV\n2 1 36608 790 662 XOR\n",
"2 1 822 662 694 XOR\n2 1 854 694 726 XOR\n2 1 886 726 758 XOR\n2 1 758 756 17748 XOR\n1 1 21599 36613 INV\n2 1 36613 785 657 XOR\n2 1 817 657 689 XOR\n2 1 849 689 721 XOR\n2 1 881 721 753 XOR\n2 1 759 753 17755 XOR\n1 1 21598 36612 INV\n2 1 36612 786 658 XOR\n2 1 818 658 690 XOR\n2 1 850 690 722 XOR\n2 1 882 722 754 XOR\n2 1 754 17755 17840 XOR\n2 1 758 17840 17836 XOR\n2 1 17840 17836 17823 AND\n2 1 1006 1004 21640 XOR\n2 1 1007 1001 21647 XOR\n2 1 1002 21647 21732 XOR\n2 1 1006 21732 21728 XOR\n2 1 21732 21728 21715 AND\n2 1 886 884 22613 XOR\n2 1 887 881 22620 XOR\n2 1 882 22620 22705 XOR\n2 1 886 22705 22701 XOR\n2 1 22705 22701 22688 AND\n2 1 15984 15985 32668 XOR\n2 1 15981 32668 15961 XOR\n2 1 15982 15961 15921 XOR\n2 1 15950 15921 36590 XOR\n2 1 15977 15961 15927 XOR\n1 1 15927 15924 INV\n2 1 15924 15925 36585 XOR\n2 1 32668 15959 36587 XOR\n2 1 16123 16124 32669 XOR\n2 1 16120 32669 16100 XOR\n2 1 16121 16100 16060 XOR\n2 1 16089 16060 36558 XOR\n2 1 36558 264 904 XOR\n2 1 296 904 936 XOR\n2 1 36590 904 776 XOR\n2 1 328 936 968 XOR\n2 1 360 968 1000 XOR\n2 1 936 776 808 XOR\n2 1 968 808 840 XOR\n2 1 1000 840 872 XOR\n2 1 874 872 12875 XOR\n2 1 16116 16100 16066 XOR\n1 1 16066 16063 INV\n2 1 872 878 12970 XOR\n2 1 1002 1000 21641 XOR\n2 1 21641 21647 21729 XOR\n2 1 16063 16064 36553 XOR\n2 1 1000 1006 21735 XOR\n2 1 36553 269 909 XOR\n2 1 301 909 941 XOR\n2 1 333 941 973 XOR\n2 1 365 973 1005 XOR\n2 1 1005 21640 21642 XOR\n2 1 1001 21642 21723 XOR\n2 1 1002 21642 21720 XOR\n2 1 21647 21642 21722 XOR\n2 1 1006 1005 21657 XOR\n2 1 21657 21729 21727 XOR\n2 1 1004 1005 21617 XOR\n2 1 1000 1005 21733 XOR\n2 1 21735 21720 21716 AND\n2 1 21716 21641 21645 XOR\n2 1 21729 21722 21714 AND\n2 1 36585 909 781 XOR\n2 1 941 781 813 XOR\n2 1 973 813 845 XOR\n2 1 1005 845 877 XOR\n2 1 877 12874 12876 XOR\n2 1 874 12876 12955 XOR\n2 1 878 877 12892 XOR\n2 1 876 877 12851 XOR\n2 1 872 877 12968 XOR\n2 1 12970 12955 12951 AND\n2 1 873 12876 12958 XOR\n2 1 12951 12875 12879 XOR\n2 1 12881 12876 12957 XOR\n2 1 12875 12881 12964 XOR\n2 1 12964 12957 12949 AND\n2 1 12892 12964 12962 XOR\n2 1 32669 16098 36555 XOR\n2 1 36555 267 907 XOR\n2 1 299 907 939 XOR\n2 1 36587 907 779 XOR\n2 1 331 939 971 XOR\n2 1 363 971 1003 XOR\n2 1 939 779 811 XOR\n2 1 971 811 843 XOR\n2 1 1003 843 875 XOR\n2 1 875 873 12877 XOR\n2 1 875 872 12969 XOR\n2 1 12969 12892 12965 XOR\n2 1 12874 12969 12961 XOR\n2 1 879 12961 12960 XOR\n2 1 877 875 12971 XOR\n2 1 12875 12971 12956 XOR\n2 1 12877 12875 12837 XOR\n2 1 12874 12837 12959 XOR\n2 1 12877 874 12836 XOR\n2 1 879 12836 12966 XOR\n2 1 12961 12965 12954 AND\n2 1 12954 12877 12880 XOR\n2 1 12962 12960 12953 AND\n2 1 12966 879 12952 AND\n2 1 12969 12958 12948 AND\n2 1 12948 12876 12878 XOR\n2 1 12880 12878 12884 XOR\n2 1 872 12884 12890 XOR\n2 1 12971 12956 12947 AND\n2 1 12947 12953 12899 XOR\n2 1 12899 12890 12945 XOR\n2 1 12947 12948 12850 XOR\n2 1 12850 12851 12898 XOR\n2 1 12898 12879 12897 XOR\n2 1 12950 12897 12944 XOR\n2 1 12968 12959 12946 AND\n2 1 12946 12949 12900 XOR\n2 1 12946 12952 12904 XOR\n2 1 12904 12875 12891 XOR\n2 1 12899 12891 12942 XOR\n2 1 12947 12900 12894 XOR\n",
"2 1 12879 12900 12853 XOR\n2 1 12853 12878 12943 XOR\n2 1 12884 12904 12852 XOR\n2 1 874 12852 12896 XOR\n2 1 12950 12894 12849 XOR\n2 1 878 12849 12937 XOR\n2 1 12945 12944 12941 AND\n2 1 12941 12896 12936 XOR\n2 1 12941 12943 12940 XOR\n2 1 12942 12940 12939 AND\n2 1 12939 12896 12938 XOR\n2 1 12939 12951 12844 XOR\n2 1 12844 12880 12840 XOR\n2 1 872 12840 12843 XOR\n2 1 12939 12890 12841 XOR\n2 1 874 12840 12839 XOR\n2 1 12936 12937 12935 AND\n2 1 12935 12943 12934 XOR\n2 1 12941 12935 12933 XOR\n2 1 12935 12894 12848 XOR\n2 1 12935 12952 12847 XOR\n2 1 12847 12949 12842 XOR\n2 1 12842 12843 12926 XOR\n2 1 12943 12933 12932 AND\n2 1 12932 12940 12930 XOR\n2 1 12932 12950 12903 XOR\n2 1 12903 12897 12924 XOR\n2 1 878 12903 12885 XOR\n2 1 12885 12848 12931 XOR\n2 1 12938 12930 12929 AND\n2 1 12929 12899 12889 XOR\n2 1 12889 12891 12928 XOR\n2 1 12929 12953 12846 XOR\n2 1 12885 12846 12838 XOR\n2 1 12875 12838 12845 XOR\n2 1 12842 12845 12927 XOR\n2 1 12889 12841 12925 XOR\n2 1 12838 12839 12923 XOR\n2 1 12924 12961 12922 AND\n2 1 12931 12960 12921 AND\n2 1 12934 879 12920 AND\n2 1 12920 12922 12902 XOR\n2 1 12925 12955 12919 AND\n2 1 12928 12967 12918 AND\n2 1 12918 12919 12887 XOR\n2 1 12938 12957 12917 AND\n2 1 12917 12918 12855 XOR\n2 1 12926 12958 12916 AND\n2 1 12923 12956 12915 AND\n2 1 12915 12887 12895 XOR\n2 1 12915 12918 12870 XOR\n1 1 12870 12867 INV\n2 1 12915 12916 12866 XOR\n2 1 12916 12895 12854 XOR\n2 1 12927 12959 12914 AND\n2 1 12924 12965 12913 AND\n2 1 12931 12962 12912 AND\n2 1 12934 12966 12911 AND\n2 1 12911 12895 12860 XOR\n1 1 12860 12857 INV\n2 1 12925 12970 12910 AND\n2 1 12910 12914 12886 XOR\n2 1 12919 12910 12871 XOR\n1 1 12886 12864 INV\n2 1 12928 12963 12909 AND\n2 1 12917 12909 12873 XOR\n2 1 12938 12964 12908 AND\n2 1 12864 12908 12863 XOR\n2 1 12863 12902 12859 XOR\n2 1 12926 12969 12907 AND\n2 1 12907 12859 12862 XOR\n2 1 12923 12971 12906 AND\n2 1 12906 12907 12901 XOR\n2 1 12912 12901 12882 XOR\n2 1 12913 12882 12883 XOR\n2 1 12921 12883 12888 XOR\n2 1 12922 12888 12893 XOR\n2 1 12887 12893 36627 XOR\n2 1 12873 12901 12869 XOR\n2 1 12902 12869 12872 XOR\n2 1 12871 12872 12975 XOR\n2 1 12864 12869 12868 XOR\n2 1 12867 12868 12974 XOR\n2 1 12893 12866 12973 XOR\n2 1 12882 12859 12858 XOR\n2 1 12857 12858 36625 XOR\n2 1 12920 12888 12856 XOR\n2 1 12855 12856 36626 XOR\n2 1 12883 12854 36630 XOR\n2 1 12927 12968 12905 AND\n2 1 12916 12905 12865 XOR\n1 1 12865 12861 INV\n2 1 12861 12862 12972 XOR\n1 1 12975 36623 INV\n1 1 12974 36624 INV\n1 1 12973 36629 INV\n1 1 12972 36628 INV\n2 1 1003 1001 21643 XOR\n2 1 1003 1000 21734 XOR\n2 1 21734 21657 21730 XOR\n2 1 21640 21734 21726 XOR\n2 1 1007 21726 21725 XOR\n2 1 1005 1003 21736 XOR\n2 1 21641 21736 21721 XOR\n2 1 21643 21641 21603 XOR\n2 1 21640 21603 21724 XOR\n2 1 21643 1002 21602 XOR\n2 1 1007 21602 21731 XOR\n2 1 21726 21730 21719 AND\n2 1 21719 21643 21646 XOR\n2 1 21727 21725 21718 AND\n2 1 21731 1007 21717 AND\n2 1 21734 21723 21713 AND\n2 1 21713 21642 21644 XOR\n2 1 21646 21644 21650 XOR\n2 1 1000 21650 21655 XOR\n2 1 21736 21721 21712 AND\n2 1 21712 21718 21664 XOR\n2 1 21664 21655 21710 XOR\n2 1 21712 21713 21616 XOR\n2 1 21616 21617 21663 XOR\n2 1 21663 21645 21662 XOR\n2 1 21715 21662 21709 XOR\n2 1 21733 21724 21711 AND\n2 1 21711 21714 21665 XOR\n2 1 21711 21717 21669 XOR\n2 1 21669 21641 21656 XOR\n2 1 21664 21656 21707 XOR\n",
"2 1 21712 21665 21659 XOR\n2 1 21645 21665 21619 XOR\n2 1 21619 21644 21708 XOR\n2 1 21650 21669 21618 XOR\n2 1 1002 21618 21661 XOR\n2 1 21715 21659 21615 XOR\n2 1 1006 21615 21702 XOR\n2 1 21710 21709 21706 AND\n2 1 21706 21661 21701 XOR\n2 1 21706 21708 21705 XOR\n2 1 21707 21705 21704 AND\n2 1 21704 21661 21703 XOR\n2 1 21704 21716 21610 XOR\n2 1 21610 21646 21606 XOR\n2 1 1000 21606 21609 XOR\n2 1 21704 21655 21607 XOR\n2 1 1002 21606 21605 XOR\n2 1 21701 21702 21700 AND\n2 1 21700 21708 21699 XOR\n2 1 21706 21700 21698 XOR\n2 1 21700 21659 21614 XOR\n2 1 21700 21717 21613 XOR\n2 1 21613 21714 21608 XOR\n2 1 21608 21609 21691 XOR\n2 1 21708 21698 21697 AND\n2 1 21697 21705 21695 XOR\n2 1 21697 21715 21668 XOR\n2 1 21668 21662 21689 XOR\n2 1 1006 21668 21651 XOR\n2 1 21651 21614 21696 XOR\n2 1 21703 21695 21694 AND\n2 1 21694 21664 21654 XOR\n2 1 21654 21656 21693 XOR\n2 1 21694 21718 21612 XOR\n2 1 21651 21612 21604 XOR\n2 1 21641 21604 21611 XOR\n2 1 21608 21611 21692 XOR\n2 1 21654 21607 21690 XOR\n2 1 21604 21605 21688 XOR\n2 1 21689 21726 21687 AND\n2 1 21696 21725 21686 AND\n2 1 21699 1007 21685 AND\n2 1 21685 21687 21667 XOR\n2 1 21690 21720 21684 AND\n2 1 21693 21732 21683 AND\n2 1 21703 21722 21682 AND\n2 1 21682 21683 21621 XOR\n2 1 21691 21723 21681 AND\n2 1 21688 21721 21680 AND\n2 1 21680 21683 21636 XOR\n1 1 21636 21633 INV\n2 1 21680 21681 21632 XOR\n2 1 21692 21724 21679 AND\n2 1 21689 21730 21678 AND\n2 1 21696 21727 21677 AND\n2 1 21699 21731 21676 AND\n2 1 21690 21735 21675 AND\n2 1 21675 21679 21652 XOR\n2 1 21684 21675 21637 XOR\n1 1 21652 21630 INV\n2 1 21693 21728 21674 AND\n2 1 21682 21674 21639 XOR\n2 1 21703 21729 21673 AND\n2 1 21630 21673 21629 XOR\n2 1 21629 21667 21625 XOR\n2 1 21691 21734 21672 AND\n2 1 21672 21625 21628 XOR\n2 1 21688 21736 21671 AND\n2 1 21671 21672 21666 XOR\n2 1 21677 21666 21648 XOR\n2 1 21678 21648 21649 XOR\n2 1 21686 21649 21653 XOR\n2 1 21687 21653 21658 XOR\n2 1 21639 21666 21635 XOR\n2 1 21667 21635 21638 XOR\n2 1 21637 21638 21740 XOR\n2 1 21630 21635 21634 XOR\n2 1 21633 21634 21739 XOR\n2 1 21658 21632 21738 XOR\n2 1 21648 21625 21624 XOR\n2 1 21685 21653 21622 XOR\n2 1 21621 21622 36594 XOR\n2 1 36594 900 1548 XOR\n2 1 932 1548 1549 XOR\n2 1 964 1549 1550 XOR\n2 1 996 1550 1551 XOR\n1 1 1551 868 INV\n1 1 1550 836 INV\n1 1 1549 804 INV\n1 1 1548 772 INV\n2 1 36626 772 644 XOR\n2 1 804 644 676 XOR\n2 1 836 676 708 XOR\n2 1 868 708 740 XOR\n2 1 21692 21733 21670 AND\n2 1 21681 21670 21631 XOR\n1 1 21631 21627 INV\n2 1 21627 21628 21737 XOR\n1 1 21740 36591 INV\n2 1 36591 903 775 XOR\n2 1 36623 775 647 XOR\n2 1 935 775 807 XOR\n2 1 967 807 839 XOR\n2 1 999 839 871 XOR\n2 1 807 647 679 XOR\n2 1 839 679 711 XOR\n2 1 871 711 743 XOR\n1 1 21739 36592 INV\n2 1 36592 902 774 XOR\n2 1 934 774 806 XOR\n2 1 966 806 838 XOR\n2 1 998 838 870 XOR\n2 1 36624 774 646 XOR\n2 1 806 646 678 XOR\n2 1 838 678 710 XOR\n2 1 870 710 742 XOR\n2 1 742 740 17053 XOR\n1 1 21738 36597 INV\n2 1 36597 897 769 XOR\n2 1 36629 769 641 XOR\n2 1 929 769 801 XOR\n2 1 961 801 833 XOR\n2 1 993 833 865 XOR\n2 1 801 641 673 XOR\n2 1 833 673 705 XOR\n2 1 865 705 737 XOR\n2 1 743 737 17060 XOR\n1 1 21737 36596 INV\n",
"2 1 36596 898 770 XOR\n2 1 930 770 802 XOR\n2 1 962 802 834 XOR\n2 1 994 834 866 XOR\n2 1 36628 770 642 XOR\n2 1 802 642 674 XOR\n2 1 834 674 706 XOR\n2 1 866 706 738 XOR\n2 1 738 17060 17145 XOR\n2 1 742 17145 17141 XOR\n2 1 17145 17141 17128 AND\n2 1 870 868 24566 XOR\n2 1 871 865 24573 XOR\n2 1 866 24573 24658 XOR\n2 1 870 24658 24654 XOR\n2 1 24658 24654 24641 AND\n2 1 19042 19043 32690 XOR\n2 1 19039 32690 19019 XOR\n2 1 19035 19019 18985 XOR\n1 1 18985 18982 INV\n2 1 18982 18983 36577 XOR\n2 1 36577 917 789 XOR\n2 1 949 789 821 XOR\n2 1 981 821 853 XOR\n2 1 1013 853 885 XOR\n2 1 885 22613 22615 XOR\n2 1 881 22615 22696 XOR\n2 1 882 22615 22693 XOR\n2 1 22620 22615 22695 XOR\n2 1 886 885 22630 XOR\n2 1 884 885 22590 XOR\n2 1 19040 19019 18979 XOR\n2 1 19008 18979 36582 XOR\n2 1 36582 912 784 XOR\n2 1 944 784 816 XOR\n2 1 976 816 848 XOR\n2 1 1008 848 880 XOR\n2 1 880 886 22708 XOR\n2 1 880 885 22706 XOR\n2 1 22708 22693 22689 AND\n2 1 882 880 22614 XOR\n2 1 22614 22620 22702 XOR\n2 1 22689 22614 22618 XOR\n2 1 22702 22695 22687 AND\n2 1 22630 22702 22700 XOR\n2 1 32690 19017 36579 XOR\n2 1 36579 915 787 XOR\n2 1 947 787 819 XOR\n2 1 979 819 851 XOR\n2 1 1011 851 883 XOR\n2 1 883 881 22616 XOR\n2 1 883 880 22707 XOR\n2 1 22707 22630 22703 XOR\n2 1 22613 22707 22699 XOR\n2 1 887 22699 22698 XOR\n2 1 885 883 22709 XOR\n2 1 22614 22709 22694 XOR\n2 1 22616 22614 22576 XOR\n2 1 22613 22576 22697 XOR\n2 1 22616 882 22575 XOR\n2 1 887 22575 22704 XOR\n2 1 22699 22703 22692 AND\n2 1 22692 22616 22619 XOR\n2 1 22700 22698 22691 AND\n2 1 22704 887 22690 AND\n2 1 22707 22696 22686 AND\n2 1 22686 22615 22617 XOR\n2 1 22619 22617 22623 XOR\n2 1 880 22623 22628 XOR\n2 1 22709 22694 22685 AND\n2 1 22685 22691 22637 XOR\n2 1 22637 22628 22683 XOR\n2 1 22685 22686 22589 XOR\n2 1 22589 22590 22636 XOR\n2 1 22636 22618 22635 XOR\n2 1 22688 22635 22682 XOR\n2 1 22706 22697 22684 AND\n2 1 22684 22687 22638 XOR\n2 1 22684 22690 22642 XOR\n2 1 22642 22614 22629 XOR\n2 1 22637 22629 22680 XOR\n2 1 22685 22638 22632 XOR\n2 1 22618 22638 22592 XOR\n2 1 22592 22617 22681 XOR\n2 1 22623 22642 22591 XOR\n2 1 882 22591 22634 XOR\n2 1 22688 22632 22588 XOR\n2 1 886 22588 22675 XOR\n2 1 22683 22682 22679 AND\n2 1 22679 22634 22674 XOR\n2 1 22679 22681 22678 XOR\n2 1 22680 22678 22677 AND\n2 1 22677 22634 22676 XOR\n2 1 22677 22689 22583 XOR\n2 1 22583 22619 22579 XOR\n2 1 880 22579 22582 XOR\n2 1 22677 22628 22580 XOR\n2 1 882 22579 22578 XOR\n2 1 22674 22675 22673 AND\n2 1 22673 22681 22672 XOR\n2 1 22679 22673 22671 XOR\n2 1 22673 22632 22587 XOR\n2 1 22673 22690 22586 XOR\n2 1 22586 22687 22581 XOR\n2 1 22581 22582 22664 XOR\n2 1 22681 22671 22670 AND\n2 1 22670 22678 22668 XOR\n2 1 22670 22688 22641 XOR\n2 1 22641 22635 22662 XOR\n2 1 886 22641 22624 XOR\n2 1 22624 22587 22669 XOR\n2 1 22676 22668 22667 AND\n2 1 22667 22637 22627 XOR\n2 1 22627 22629 22666 XOR\n2 1 22667 22691 22585 XOR\n2 1 22624 22585 22577 XOR\n2 1 22614 22577 22584 XOR\n2 1 22581 22584 22665 XOR\n2 1 22627 22580 22663 XOR\n2 1 22577 22578 22661 XOR\n2 1 22662 22699 22660 AND\n2 1 22669 22698 22659 AND\n2 1 22672 887 22658 AND\n2 1 22658 22660 22640 XOR\n2 1 22663 22693 22657 AND\n2 1 22666 22705 22656 AND\n2 1 22676 22695 22655 AND\n2 1 22655 22656 22594 XOR\n",
"2 1 22664 22696 22654 AND\n2 1 22661 22694 22653 AND\n2 1 22653 22656 22609 XOR\n1 1 22609 22606 INV\n2 1 22653 22654 22605 XOR\n2 1 22665 22697 22652 AND\n2 1 22662 22703 22651 AND\n2 1 22669 22700 22650 AND\n2 1 22672 22704 22649 AND\n2 1 22663 22708 22648 AND\n2 1 22648 22652 22625 XOR\n2 1 22657 22648 22610 XOR\n1 1 22625 22603 INV\n2 1 22666 22701 22647 AND\n2 1 22655 22647 22612 XOR\n2 1 22676 22702 22646 AND\n2 1 22603 22646 22602 XOR\n2 1 22602 22640 22598 XOR\n2 1 22664 22707 22645 AND\n2 1 22645 22598 22601 XOR\n2 1 22661 22709 22644 AND\n2 1 22644 22645 22639 XOR\n2 1 22650 22639 22621 XOR\n2 1 22651 22621 22622 XOR\n2 1 22659 22622 22626 XOR\n2 1 22660 22626 22631 XOR\n2 1 22612 22639 22608 XOR\n2 1 22640 22608 22611 XOR\n2 1 22610 22611 22713 XOR\n2 1 22603 22608 22607 XOR\n2 1 22606 22607 22712 XOR\n2 1 22631 22605 22711 XOR\n2 1 22621 22598 22597 XOR\n2 1 22658 22626 22595 XOR\n2 1 22594 22595 36618 XOR\n2 1 36618 780 652 XOR\n2 1 812 652 684 XOR\n2 1 844 684 716 XOR\n2 1 876 716 748 XOR\n2 1 22665 22706 22643 AND\n2 1 22654 22643 22604 XOR\n1 1 22604 22600 INV\n2 1 22600 22601 22710 XOR\n1 1 22713 36615 INV\n2 1 36615 783 655 XOR\n2 1 815 655 687 XOR\n2 1 847 687 719 XOR\n2 1 879 719 751 XOR\n1 1 22712 36616 INV\n2 1 36616 782 654 XOR\n2 1 814 654 686 XOR\n2 1 846 686 718 XOR\n2 1 878 718 750 XOR\n2 1 750 748 18860 XOR\n1 1 22711 36621 INV\n2 1 36621 777 649 XOR\n2 1 809 649 681 XOR\n2 1 841 681 713 XOR\n2 1 873 713 745 XOR\n2 1 751 745 18867 XOR\n1 1 22710 36620 INV\n2 1 36620 778 650 XOR\n2 1 810 650 682 XOR\n2 1 842 682 714 XOR\n2 1 874 714 746 XOR\n2 1 746 18867 18952 XOR\n2 1 750 18952 18948 XOR\n2 1 18952 18948 18935 AND\n2 1 21544 21545 32708 XOR\n2 1 21541 32708 21521 XOR\n2 1 21542 21521 21481 XOR\n2 1 21537 21521 21487 XOR\n1 1 21487 21484 INV\n2 1 21484 21485 36609 XOR\n2 1 21510 21481 36614 XOR\n2 1 36614 784 656 XOR\n2 1 816 656 688 XOR\n2 1 848 688 720 XOR\n2 1 880 720 752 XOR\n2 1 754 752 17749 XOR\n2 1 17749 17755 17837 XOR\n2 1 752 758 17843 XOR\n2 1 36609 789 661 XOR\n2 1 821 661 693 XOR\n2 1 853 693 725 XOR\n2 1 885 725 757 XOR\n2 1 757 17748 17750 XOR\n2 1 754 17750 17828 XOR\n2 1 17755 17750 17830 XOR\n2 1 17843 17828 17824 AND\n2 1 17824 17749 17753 XOR\n2 1 753 17750 17831 XOR\n2 1 17837 17830 17822 AND\n2 1 756 757 17725 XOR\n2 1 758 757 17765 XOR\n2 1 17765 17837 17835 XOR\n2 1 752 757 17841 XOR\n2 1 32708 21519 36611 XOR\n2 1 36611 787 659 XOR\n2 1 819 659 691 XOR\n2 1 851 691 723 XOR\n2 1 883 723 755 XOR\n2 1 755 753 17751 XOR\n2 1 755 752 17842 XOR\n2 1 17842 17765 17838 XOR\n2 1 17748 17842 17834 XOR\n2 1 759 17834 17833 XOR\n2 1 757 755 17844 XOR\n2 1 17749 17844 17829 XOR\n2 1 17751 17749 17711 XOR\n2 1 17748 17711 17832 XOR\n2 1 17751 754 17710 XOR\n2 1 759 17710 17839 XOR\n2 1 17834 17838 17827 AND\n2 1 17827 17751 17754 XOR\n2 1 17835 17833 17826 AND\n2 1 17839 759 17825 AND\n2 1 17842 17831 17821 AND\n2 1 17821 17750 17752 XOR\n2 1 17754 17752 17758 XOR\n2 1 752 17758 17763 XOR\n2 1 17844 17829 17820 AND\n2 1 17820 17826 17772 XOR\n2 1 17772 17763 17818 XOR\n2 1 17820 17821 17724 XOR\n2 1 17724 17725 17771 XOR\n2 1 17771 17753 17770 XOR\n2 1 17823 17770 17817 XOR\n",
"2 1 17841 17832 17819 AND\n2 1 17819 17822 17773 XOR\n2 1 17819 17825 17777 XOR\n2 1 17777 17749 17764 XOR\n2 1 17772 17764 17815 XOR\n2 1 17820 17773 17767 XOR\n2 1 17753 17773 17727 XOR\n2 1 17727 17752 17816 XOR\n2 1 17758 17777 17726 XOR\n2 1 754 17726 17769 XOR\n2 1 17823 17767 17723 XOR\n2 1 758 17723 17810 XOR\n2 1 17818 17817 17814 AND\n2 1 17814 17769 17809 XOR\n2 1 17814 17816 17813 XOR\n2 1 17815 17813 17812 AND\n2 1 17812 17769 17811 XOR\n2 1 17812 17824 17718 XOR\n2 1 17718 17754 17714 XOR\n2 1 752 17714 17717 XOR\n2 1 17812 17763 17715 XOR\n2 1 754 17714 17713 XOR\n2 1 17809 17810 17808 AND\n2 1 17808 17816 17807 XOR\n2 1 17814 17808 17806 XOR\n2 1 17808 17767 17722 XOR\n2 1 17808 17825 17721 XOR\n2 1 17721 17822 17716 XOR\n2 1 17716 17717 17799 XOR\n2 1 17816 17806 17805 AND\n2 1 17805 17813 17803 XOR\n2 1 17805 17823 17776 XOR\n2 1 17776 17770 17797 XOR\n2 1 758 17776 17759 XOR\n2 1 17759 17722 17804 XOR\n2 1 17811 17803 17802 AND\n2 1 17802 17772 17762 XOR\n2 1 17762 17764 17801 XOR\n2 1 17802 17826 17720 XOR\n2 1 17759 17720 17712 XOR\n2 1 17749 17712 17719 XOR\n2 1 17716 17719 17800 XOR\n2 1 17762 17715 17798 XOR\n2 1 17712 17713 17796 XOR\n2 1 17797 17834 17795 AND\n2 1 17804 17833 17794 AND\n2 1 17807 759 17793 AND\n2 1 17793 17795 17775 XOR\n2 1 17798 17828 17792 AND\n2 1 17801 17840 17791 AND\n2 1 17811 17830 17790 AND\n2 1 17790 17791 17729 XOR\n2 1 17799 17831 17789 AND\n2 1 17796 17829 17788 AND\n2 1 17788 17791 17744 XOR\n1 1 17744 17741 INV\n2 1 17788 17789 17740 XOR\n2 1 17800 17832 17787 AND\n2 1 17797 17838 17786 AND\n2 1 17804 17835 17785 AND\n2 1 17807 17839 17784 AND\n2 1 17798 17843 17783 AND\n2 1 17783 17787 17760 XOR\n2 1 17792 17783 17745 XOR\n1 1 17760 17738 INV\n2 1 17801 17836 17782 AND\n2 1 17790 17782 17747 XOR\n2 1 17811 17837 17781 AND\n2 1 17738 17781 17737 XOR\n2 1 17737 17775 17733 XOR\n2 1 17799 17842 17780 AND\n2 1 17780 17733 17736 XOR\n2 1 17796 17844 17779 AND\n2 1 17779 17780 17774 XOR\n2 1 17785 17774 17756 XOR\n2 1 17786 17756 17757 XOR\n2 1 17794 17757 17761 XOR\n2 1 17795 17761 17766 XOR\n2 1 17747 17774 17743 XOR\n2 1 17775 17743 17746 XOR\n2 1 17745 17746 17848 XOR\n2 1 17738 17743 17742 XOR\n2 1 17741 17742 17847 XOR\n2 1 17766 17740 17846 XOR\n2 1 17756 17733 17732 XOR\n2 1 17793 17761 17730 XOR\n2 1 17729 17730 36650 XOR\n2 1 36650 652 524 XOR\n2 1 684 524 556 XOR\n2 1 716 556 588 XOR\n2 1 748 588 620 XOR\n2 1 17800 17841 17778 AND\n2 1 17789 17778 17739 XOR\n1 1 17739 17735 INV\n2 1 17735 17736 17845 XOR\n1 1 17848 36647 INV\n2 1 36647 655 527 XOR\n2 1 687 527 559 XOR\n2 1 719 559 591 XOR\n2 1 751 591 623 XOR\n1 1 17847 36648 INV\n2 1 36648 654 526 XOR\n2 1 686 526 558 XOR\n2 1 718 558 590 XOR\n2 1 750 590 622 XOR\n1 1 17846 36653 INV\n2 1 36653 649 521 XOR\n2 1 681 521 553 XOR\n2 1 713 553 585 XOR\n2 1 745 585 617 XOR\n1 1 17845 36652 INV\n2 1 36652 650 522 XOR\n2 1 682 522 554 XOR\n2 1 714 554 586 XOR\n2 1 746 586 618 XOR\n2 1 622 620 21362 XOR\n2 1 623 617 21369 XOR\n2 1 618 21369 21454 XOR\n2 1 622 21454 21450 XOR\n2 1 21454 21450 21437 AND\n2 1 17791 17792 32681 XOR\n2 1 17788 32681 17768 XOR\n2 1 17789 17768 17728 XOR\n2 1 17784 17768 17734 XOR\n1 1 17734 17731 INV\n2 1 17731 17732 36649 XOR\n2 1 17757 17728 36654 XOR\n2 1 32681 17766 36651 XOR\n",
"2 1 21683 21684 32709 XOR\n2 1 21680 32709 21660 XOR\n2 1 21681 21660 21620 XOR\n2 1 21649 21620 36598 XOR\n2 1 36598 896 768 XOR\n2 1 36630 768 640 XOR\n2 1 21676 21660 21626 XOR\n1 1 21626 21623 INV\n2 1 21623 21624 36593 XOR\n2 1 36593 901 773 XOR\n2 1 933 773 805 XOR\n2 1 965 805 837 XOR\n2 1 997 837 869 XOR\n2 1 869 24566 24568 XOR\n2 1 865 24568 24649 XOR\n2 1 866 24568 24646 XOR\n2 1 24573 24568 24648 XOR\n2 1 870 869 24583 XOR\n2 1 868 869 24543 XOR\n2 1 36625 773 645 XOR\n2 1 805 645 677 XOR\n2 1 837 677 709 XOR\n2 1 869 709 741 XOR\n2 1 740 741 17030 XOR\n2 1 741 17053 17055 XOR\n2 1 737 17055 17136 XOR\n2 1 738 17055 17133 XOR\n2 1 17060 17055 17135 XOR\n2 1 742 741 17070 XOR\n2 1 928 768 800 XOR\n2 1 960 800 832 XOR\n2 1 992 832 864 XOR\n2 1 866 864 24567 XOR\n2 1 24567 24573 24655 XOR\n2 1 24583 24655 24653 XOR\n2 1 864 870 24661 XOR\n2 1 864 869 24659 XOR\n2 1 24661 24646 24642 AND\n2 1 800 640 672 XOR\n2 1 24642 24567 24571 XOR\n2 1 24655 24648 24640 AND\n2 1 832 672 704 XOR\n2 1 864 704 736 XOR\n2 1 736 741 17146 XOR\n2 1 736 742 17148 XOR\n2 1 17148 17133 17129 AND\n2 1 738 736 17054 XOR\n2 1 17054 17060 17142 XOR\n2 1 17070 17142 17140 XOR\n2 1 17129 17054 17058 XOR\n2 1 17142 17135 17127 AND\n2 1 32709 21658 36595 XOR\n2 1 36595 899 771 XOR\n2 1 36627 771 1552 XOR\n2 1 931 771 803 XOR\n2 1 963 803 835 XOR\n2 1 995 835 867 XOR\n2 1 803 1552 1553 XOR\n1 1 1553 675 INV\n2 1 835 1553 1554 XOR\n1 1 1554 707 INV\n2 1 867 1554 1555 XOR\n1 1 1555 739 INV\n1 1 1552 643 INV\n2 1 739 737 17056 XOR\n2 1 739 736 17147 XOR\n2 1 17147 17070 17143 XOR\n2 1 17053 17147 17139 XOR\n2 1 743 17139 17138 XOR\n2 1 741 739 17149 XOR\n2 1 17054 17149 17134 XOR\n2 1 17056 17054 17016 XOR\n2 1 17053 17016 17137 XOR\n2 1 17056 738 17015 XOR\n2 1 743 17015 17144 XOR\n2 1 17139 17143 17132 AND\n2 1 17132 17056 17059 XOR\n2 1 17140 17138 17131 AND\n2 1 17144 743 17130 AND\n2 1 17147 17136 17126 AND\n2 1 17126 17055 17057 XOR\n2 1 17059 17057 17063 XOR\n2 1 736 17063 17068 XOR\n2 1 17149 17134 17125 AND\n2 1 17125 17131 17077 XOR\n2 1 17077 17068 17123 XOR\n2 1 17125 17126 17029 XOR\n2 1 17029 17030 17076 XOR\n2 1 17076 17058 17075 XOR\n2 1 17128 17075 17122 XOR\n2 1 17146 17137 17124 AND\n2 1 17124 17127 17078 XOR\n2 1 17124 17130 17082 XOR\n2 1 17082 17054 17069 XOR\n2 1 17077 17069 17120 XOR\n2 1 17125 17078 17072 XOR\n2 1 17058 17078 17032 XOR\n2 1 17032 17057 17121 XOR\n2 1 17063 17082 17031 XOR\n2 1 738 17031 17074 XOR\n2 1 17128 17072 17028 XOR\n2 1 742 17028 17115 XOR\n2 1 17123 17122 17119 AND\n2 1 17119 17074 17114 XOR\n2 1 17119 17121 17118 XOR\n2 1 17120 17118 17117 AND\n2 1 17117 17074 17116 XOR\n2 1 17117 17129 17023 XOR\n2 1 17023 17059 17019 XOR\n2 1 736 17019 17022 XOR\n2 1 17117 17068 17020 XOR\n2 1 738 17019 17018 XOR\n2 1 17114 17115 17113 AND\n2 1 17113 17121 17112 XOR\n2 1 17119 17113 17111 XOR\n2 1 17113 17072 17027 XOR\n2 1 17113 17130 17026 XOR\n2 1 17026 17127 17021 XOR\n2 1 17021 17022 17104 XOR\n2 1 17121 17111 17110 AND\n2 1 17110 17118 17108 XOR\n2 1 17110 17128 17081 XOR\n2 1 17081 17075 17102 XOR\n2 1 742 17081 17064 XOR\n2 1 17064 17027 17109 XOR\n2 1 17116 17108 17107 AND\n2 1 17107 17077 17067 XOR\n2 1 17067 17069 17106 XOR\n",
"2 1 17107 17131 17025 XOR\n2 1 17064 17025 17017 XOR\n2 1 17054 17017 17024 XOR\n2 1 17021 17024 17105 XOR\n2 1 17067 17020 17103 XOR\n2 1 17017 17018 17101 XOR\n2 1 17102 17139 17100 AND\n2 1 17109 17138 17099 AND\n2 1 17112 743 17098 AND\n2 1 17098 17100 17080 XOR\n2 1 17103 17133 17097 AND\n2 1 17106 17145 17096 AND\n2 1 17116 17135 17095 AND\n2 1 17095 17096 17034 XOR\n2 1 17104 17136 17094 AND\n2 1 17101 17134 17093 AND\n2 1 17093 17096 17049 XOR\n1 1 17049 17046 INV\n2 1 17093 17094 17045 XOR\n2 1 17105 17137 17092 AND\n2 1 17102 17143 17091 AND\n2 1 17109 17140 17090 AND\n2 1 17112 17144 17089 AND\n2 1 17103 17148 17088 AND\n2 1 17088 17092 17065 XOR\n2 1 17097 17088 17050 XOR\n1 1 17065 17043 INV\n2 1 17106 17141 17087 AND\n2 1 17095 17087 17052 XOR\n2 1 17116 17142 17086 AND\n2 1 17043 17086 17042 XOR\n2 1 17042 17080 17038 XOR\n2 1 17104 17147 17085 AND\n2 1 17085 17038 17041 XOR\n2 1 17101 17149 17084 AND\n2 1 17084 17085 17079 XOR\n2 1 17090 17079 17061 XOR\n2 1 17091 17061 17062 XOR\n2 1 17099 17062 17066 XOR\n2 1 17100 17066 17071 XOR\n2 1 17052 17079 17048 XOR\n2 1 17080 17048 17051 XOR\n2 1 17050 17051 17153 XOR\n2 1 17043 17048 17047 XOR\n2 1 17046 17047 17152 XOR\n2 1 17071 17045 17151 XOR\n2 1 17061 17038 17037 XOR\n2 1 17098 17066 17035 XOR\n2 1 17034 17035 36634 XOR\n2 1 17105 17146 17083 AND\n2 1 17094 17083 17044 XOR\n1 1 17044 17040 INV\n2 1 17040 17041 17150 XOR\n1 1 17153 36631 INV\n1 1 17152 36632 INV\n1 1 17151 36637 INV\n1 1 17150 36636 INV\n2 1 867 865 24569 XOR\n2 1 867 864 24660 XOR\n2 1 24660 24583 24656 XOR\n2 1 24566 24660 24652 XOR\n2 1 871 24652 24651 XOR\n2 1 869 867 24662 XOR\n2 1 24567 24662 24647 XOR\n2 1 24569 24567 24529 XOR\n2 1 24566 24529 24650 XOR\n2 1 24569 866 24528 XOR\n2 1 871 24528 24657 XOR\n2 1 24652 24656 24645 AND\n2 1 24645 24569 24572 XOR\n2 1 24653 24651 24644 AND\n2 1 24657 871 24643 AND\n2 1 24660 24649 24639 AND\n2 1 24639 24568 24570 XOR\n2 1 24572 24570 24576 XOR\n2 1 864 24576 24581 XOR\n2 1 24662 24647 24638 AND\n2 1 24638 24644 24590 XOR\n2 1 24590 24581 24636 XOR\n2 1 24638 24639 24542 XOR\n2 1 24542 24543 24589 XOR\n2 1 24589 24571 24588 XOR\n2 1 24641 24588 24635 XOR\n2 1 24659 24650 24637 AND\n2 1 24637 24640 24591 XOR\n2 1 24637 24643 24595 XOR\n2 1 24595 24567 24582 XOR\n2 1 24590 24582 24633 XOR\n2 1 24638 24591 24585 XOR\n2 1 24571 24591 24545 XOR\n2 1 24545 24570 24634 XOR\n2 1 24576 24595 24544 XOR\n2 1 866 24544 24587 XOR\n2 1 24641 24585 24541 XOR\n2 1 870 24541 24628 XOR\n2 1 24636 24635 24632 AND\n2 1 24632 24587 24627 XOR\n2 1 24632 24634 24631 XOR\n2 1 24633 24631 24630 AND\n2 1 24630 24587 24629 XOR\n2 1 24630 24642 24536 XOR\n2 1 24536 24572 24532 XOR\n2 1 864 24532 24535 XOR\n2 1 24630 24581 24533 XOR\n2 1 866 24532 24531 XOR\n2 1 24627 24628 24626 AND\n2 1 24626 24634 24625 XOR\n2 1 24632 24626 24624 XOR\n2 1 24626 24585 24540 XOR\n2 1 24626 24643 24539 XOR\n2 1 24539 24640 24534 XOR\n2 1 24534 24535 24617 XOR\n2 1 24634 24624 24623 AND\n2 1 24623 24631 24621 XOR\n2 1 24623 24641 24594 XOR\n2 1 24594 24588 24615 XOR\n2 1 870 24594 24577 XOR\n2 1 24577 24540 24622 XOR\n2 1 24629 24621 24620 AND\n2 1 24620 24590 24580 XOR\n2 1 24580 24582 24619 XOR\n2 1 24620 24644 24538 XOR\n2 1 24577 24538 24530 XOR\n2 1 24567 24530 24537 XOR\n2 1 24534 24537 24618 XOR\n2 1 24580 24533 24616 XOR\n2 1 24530 24531 24614 XOR\n2 1 24615 24652 24613 AND\n",
"2 1 24622 24651 24612 AND\n2 1 24625 871 24611 AND\n2 1 24611 24613 24593 XOR\n2 1 24616 24646 24610 AND\n2 1 24619 24658 24609 AND\n2 1 24629 24648 24608 AND\n2 1 24608 24609 24547 XOR\n2 1 24617 24649 24607 AND\n2 1 24614 24647 24606 AND\n2 1 24606 24609 24562 XOR\n1 1 24562 24559 INV\n2 1 24606 24607 24558 XOR\n2 1 24618 24650 24605 AND\n2 1 24615 24656 24604 AND\n2 1 24622 24653 24603 AND\n2 1 24625 24657 24602 AND\n2 1 24616 24661 24601 AND\n2 1 24601 24605 24578 XOR\n2 1 24610 24601 24563 XOR\n1 1 24578 24556 INV\n2 1 24619 24654 24600 AND\n2 1 24608 24600 24565 XOR\n2 1 24629 24655 24599 AND\n2 1 24556 24599 24555 XOR\n2 1 24555 24593 24551 XOR\n2 1 24617 24660 24598 AND\n2 1 24598 24551 24554 XOR\n2 1 24614 24662 24597 AND\n2 1 24597 24598 24592 XOR\n2 1 24603 24592 24574 XOR\n2 1 24604 24574 24575 XOR\n2 1 24612 24575 24579 XOR\n2 1 24613 24579 24584 XOR\n2 1 24565 24592 24561 XOR\n2 1 24593 24561 24564 XOR\n2 1 24563 24564 24666 XOR\n2 1 24556 24561 24560 XOR\n2 1 24559 24560 24665 XOR\n2 1 24584 24558 24664 XOR\n2 1 24574 24551 24550 XOR\n2 1 24611 24579 24548 XOR\n2 1 24547 24548 36602 XOR\n2 1 36602 796 668 XOR\n2 1 828 668 700 XOR\n2 1 860 700 732 XOR\n2 1 892 732 764 XOR\n2 1 36634 668 540 XOR\n2 1 700 540 572 XOR\n2 1 732 572 604 XOR\n2 1 764 604 636 XOR\n2 1 24618 24659 24596 AND\n2 1 24607 24596 24557 XOR\n1 1 24557 24553 INV\n2 1 24553 24554 24663 XOR\n1 1 24666 36599 INV\n2 1 36599 799 671 XOR\n2 1 831 671 703 XOR\n2 1 863 703 735 XOR\n2 1 36631 671 543 XOR\n2 1 703 543 575 XOR\n2 1 735 575 607 XOR\n2 1 895 735 767 XOR\n2 1 767 607 639 XOR\n1 1 24665 36600 INV\n2 1 36600 798 670 XOR\n2 1 830 670 702 XOR\n2 1 862 702 734 XOR\n2 1 894 734 766 XOR\n2 1 36632 670 542 XOR\n2 1 702 542 574 XOR\n2 1 734 574 606 XOR\n2 1 766 606 638 XOR\n2 1 638 636 18721 XOR\n2 1 766 764 23586 XOR\n1 1 24664 36605 INV\n2 1 36605 793 665 XOR\n2 1 825 665 697 XOR\n2 1 857 697 729 XOR\n2 1 889 729 761 XOR\n2 1 36637 665 537 XOR\n2 1 697 537 569 XOR\n2 1 729 569 601 XOR\n2 1 761 601 633 XOR\n2 1 639 633 18728 XOR\n2 1 767 761 23593 XOR\n1 1 24663 36604 INV\n2 1 36604 794 666 XOR\n2 1 826 666 698 XOR\n2 1 36636 666 538 XOR\n2 1 858 698 730 XOR\n2 1 890 730 762 XOR\n2 1 698 538 570 XOR\n2 1 730 570 602 XOR\n2 1 762 602 634 XOR\n2 1 634 18728 18813 XOR\n2 1 638 18813 18809 XOR\n2 1 18813 18809 18796 AND\n2 1 762 23593 23679 XOR\n2 1 766 23679 23675 XOR\n2 1 23679 23675 23662 AND\n2 1 17096 17097 32676 XOR\n2 1 32676 17071 36635 XOR\n2 1 17093 32676 17073 XOR\n2 1 17089 17073 17039 XOR\n1 1 17039 17036 INV\n2 1 17036 17037 36633 XOR\n2 1 17094 17073 17033 XOR\n2 1 17062 17033 36638 XOR\n2 1 22656 22657 32716 XOR\n2 1 32716 22631 36619 XOR\n2 1 36619 779 651 XOR\n2 1 811 651 683 XOR\n2 1 843 683 715 XOR\n2 1 875 715 747 XOR\n2 1 747 745 18863 XOR\n2 1 36651 651 523 XOR\n2 1 683 523 555 XOR\n2 1 715 555 587 XOR\n2 1 747 587 619 XOR\n2 1 619 617 21365 XOR\n2 1 21365 618 21324 XOR\n2 1 623 21324 21453 XOR\n2 1 21453 623 21439 AND\n2 1 18863 746 18822 XOR\n2 1 751 18822 18951 XOR\n2 1 18951 751 18937 AND\n2 1 22653 32716 22633 XOR\n2 1 22649 22633 22599 XOR\n",
"1 1 22599 22596 INV\n2 1 22596 22597 36617 XOR\n2 1 36617 781 653 XOR\n2 1 813 653 685 XOR\n2 1 845 685 717 XOR\n2 1 877 717 749 XOR\n2 1 36649 653 525 XOR\n2 1 685 525 557 XOR\n2 1 717 557 589 XOR\n2 1 749 589 621 XOR\n2 1 749 18860 18862 XOR\n2 1 745 18862 18943 XOR\n2 1 746 18862 18940 XOR\n2 1 18867 18862 18942 XOR\n2 1 750 749 18877 XOR\n2 1 749 747 18956 XOR\n2 1 748 749 18837 XOR\n2 1 621 21362 21364 XOR\n2 1 617 21364 21445 XOR\n2 1 618 21364 21442 XOR\n2 1 21369 21364 21444 XOR\n2 1 622 621 21379 XOR\n2 1 621 619 21458 XOR\n2 1 620 621 21339 XOR\n2 1 22654 22633 22593 XOR\n2 1 22622 22593 36622 XOR\n2 1 36622 776 648 XOR\n2 1 808 648 680 XOR\n2 1 36654 648 520 XOR\n2 1 840 680 712 XOR\n2 1 680 520 552 XOR\n2 1 712 552 584 XOR\n2 1 872 712 744 XOR\n2 1 744 584 616 XOR\n2 1 746 744 18861 XOR\n2 1 18861 18956 18941 XOR\n2 1 747 744 18954 XOR\n2 1 18954 18877 18950 XOR\n2 1 18861 18867 18949 XOR\n2 1 18877 18949 18947 XOR\n2 1 18860 18954 18946 XOR\n2 1 751 18946 18945 XOR\n2 1 18863 18861 18823 XOR\n2 1 18860 18823 18944 XOR\n2 1 744 750 18955 XOR\n2 1 744 749 18953 XOR\n2 1 18946 18950 18939 AND\n2 1 18939 18863 18866 XOR\n2 1 18947 18945 18938 AND\n2 1 18955 18940 18936 AND\n2 1 18936 18861 18865 XOR\n2 1 18949 18942 18934 AND\n2 1 18954 18943 18933 AND\n2 1 18933 18862 18864 XOR\n2 1 18866 18864 18870 XOR\n2 1 744 18870 18875 XOR\n2 1 18956 18941 18932 AND\n2 1 18932 18938 18884 XOR\n2 1 18884 18875 18930 XOR\n2 1 18932 18933 18836 XOR\n2 1 18836 18837 18883 XOR\n2 1 18883 18865 18882 XOR\n2 1 18935 18882 18929 XOR\n2 1 18953 18944 18931 AND\n2 1 18931 18934 18885 XOR\n2 1 18931 18937 18889 XOR\n2 1 18889 18861 18876 XOR\n2 1 18884 18876 18927 XOR\n2 1 18932 18885 18879 XOR\n2 1 18865 18885 18839 XOR\n2 1 18839 18864 18928 XOR\n2 1 18870 18889 18838 XOR\n2 1 746 18838 18881 XOR\n2 1 18935 18879 18835 XOR\n2 1 750 18835 18922 XOR\n2 1 18930 18929 18926 AND\n2 1 18926 18881 18921 XOR\n2 1 18926 18928 18925 XOR\n2 1 18927 18925 18924 AND\n2 1 18924 18881 18923 XOR\n2 1 18924 18936 18830 XOR\n2 1 18830 18866 18826 XOR\n2 1 744 18826 18829 XOR\n2 1 18924 18875 18827 XOR\n2 1 746 18826 18825 XOR\n2 1 18921 18922 18920 AND\n2 1 18920 18928 18919 XOR\n2 1 18926 18920 18918 XOR\n2 1 18920 18879 18834 XOR\n2 1 18920 18937 18833 XOR\n2 1 18833 18934 18828 XOR\n2 1 18828 18829 18911 XOR\n2 1 18928 18918 18917 AND\n2 1 18917 18925 18915 XOR\n2 1 18917 18935 18888 XOR\n2 1 18888 18882 18909 XOR\n2 1 750 18888 18871 XOR\n2 1 18871 18834 18916 XOR\n2 1 18923 18915 18914 AND\n2 1 18914 18884 18874 XOR\n2 1 18874 18876 18913 XOR\n2 1 18914 18938 18832 XOR\n2 1 18871 18832 18824 XOR\n2 1 18861 18824 18831 XOR\n2 1 18828 18831 18912 XOR\n2 1 18874 18827 18910 XOR\n2 1 18824 18825 18908 XOR\n2 1 18909 18946 18907 AND\n2 1 18916 18945 18906 AND\n2 1 18919 751 18905 AND\n2 1 18905 18907 18887 XOR\n2 1 18910 18940 18904 AND\n2 1 18913 18952 18903 AND\n2 1 18923 18942 18902 AND\n2 1 18902 18903 18841 XOR\n2 1 18911 18943 18901 AND\n2 1 18908 18941 18900 AND\n2 1 18900 18903 18856 XOR\n1 1 18856 18853 INV\n2 1 18900 18901 18852 XOR\n2 1 18912 18944 18899 AND\n2 1 18909 18950 18898 AND\n2 1 18916 18947 18897 AND\n2 1 18919 18951 18896 AND\n2 1 18910 18955 18895 AND\n2 1 18895 18899 18872 XOR\n2 1 18904 18895 18857 XOR\n1 1 18872 18850 INV\n",
"2 1 18913 18948 18894 AND\n2 1 18902 18894 18859 XOR\n2 1 18923 18949 18893 AND\n2 1 18850 18893 18849 XOR\n2 1 18849 18887 18845 XOR\n2 1 18911 18954 18892 AND\n2 1 18892 18845 18848 XOR\n2 1 18908 18956 18891 AND\n2 1 18891 18892 18886 XOR\n2 1 18897 18886 18868 XOR\n2 1 18898 18868 18869 XOR\n2 1 18906 18869 18873 XOR\n2 1 18907 18873 18878 XOR\n2 1 18859 18886 18855 XOR\n2 1 18887 18855 18858 XOR\n2 1 18857 18858 18960 XOR\n2 1 18850 18855 18854 XOR\n2 1 18853 18854 18959 XOR\n2 1 18878 18852 18958 XOR\n2 1 18868 18845 18844 XOR\n2 1 18905 18873 18842 XOR\n2 1 18841 18842 36658 XOR\n2 1 36658 644 516 XOR\n2 1 676 516 548 XOR\n2 1 708 548 580 XOR\n2 1 740 580 612 XOR\n2 1 18912 18953 18890 AND\n2 1 18901 18890 18851 XOR\n1 1 18851 18847 INV\n2 1 18847 18848 18957 XOR\n1 1 18960 36655 INV\n2 1 36655 647 519 XOR\n2 1 679 519 551 XOR\n2 1 711 551 583 XOR\n2 1 743 583 615 XOR\n1 1 18959 36656 INV\n2 1 36656 646 518 XOR\n2 1 678 518 550 XOR\n2 1 710 550 582 XOR\n2 1 742 582 614 XOR\n1 1 18958 36661 INV\n2 1 36661 641 513 XOR\n2 1 673 513 545 XOR\n2 1 705 545 577 XOR\n2 1 737 577 609 XOR\n1 1 18957 36660 INV\n2 1 36660 642 1556 XOR\n1 1 1556 514 INV\n2 1 674 1556 1557 XOR\n1 1 1557 546 INV\n2 1 706 1557 1558 XOR\n2 1 738 1558 1559 XOR\n1 1 1559 610 INV\n1 1 1558 578 INV\n2 1 618 616 21363 XOR\n2 1 21363 21458 21443 XOR\n2 1 619 616 21456 XOR\n2 1 21456 21379 21452 XOR\n2 1 21363 21369 21451 XOR\n2 1 21379 21451 21449 XOR\n2 1 21362 21456 21448 XOR\n2 1 623 21448 21447 XOR\n2 1 21365 21363 21325 XOR\n2 1 21362 21325 21446 XOR\n2 1 616 622 21457 XOR\n2 1 616 621 21455 XOR\n2 1 21448 21452 21441 AND\n2 1 21441 21365 21368 XOR\n2 1 21449 21447 21440 AND\n2 1 21457 21442 21438 AND\n2 1 21438 21363 21367 XOR\n2 1 21451 21444 21436 AND\n2 1 21456 21445 21435 AND\n2 1 21435 21364 21366 XOR\n2 1 21368 21366 21372 XOR\n2 1 616 21372 21377 XOR\n2 1 21458 21443 21434 AND\n2 1 21434 21440 21386 XOR\n2 1 21386 21377 21432 XOR\n2 1 21434 21435 21338 XOR\n2 1 21338 21339 21385 XOR\n2 1 21385 21367 21384 XOR\n2 1 21437 21384 21431 XOR\n2 1 21455 21446 21433 AND\n2 1 21433 21436 21387 XOR\n2 1 21433 21439 21391 XOR\n2 1 21391 21363 21378 XOR\n2 1 21386 21378 21429 XOR\n2 1 21434 21387 21381 XOR\n2 1 21367 21387 21341 XOR\n2 1 21341 21366 21430 XOR\n2 1 21372 21391 21340 XOR\n2 1 618 21340 21383 XOR\n2 1 21437 21381 21337 XOR\n2 1 622 21337 21424 XOR\n2 1 21432 21431 21428 AND\n2 1 21428 21383 21423 XOR\n2 1 21428 21430 21427 XOR\n2 1 21429 21427 21426 AND\n2 1 21426 21383 21425 XOR\n2 1 21426 21438 21332 XOR\n2 1 21332 21368 21328 XOR\n2 1 616 21328 21331 XOR\n2 1 21426 21377 21329 XOR\n2 1 618 21328 21327 XOR\n2 1 21423 21424 21422 AND\n2 1 21422 21430 21421 XOR\n2 1 21428 21422 21420 XOR\n2 1 21422 21381 21336 XOR\n2 1 21422 21439 21335 XOR\n2 1 21335 21436 21330 XOR\n2 1 21330 21331 21413 XOR\n2 1 21430 21420 21419 AND\n2 1 21419 21427 21417 XOR\n2 1 21419 21437 21390 XOR\n2 1 21390 21384 21411 XOR\n2 1 622 21390 21373 XOR\n2 1 21373 21336 21418 XOR\n2 1 21425 21417 21416 AND\n2 1 21416 21386 21376 XOR\n2 1 21376 21378 21415 XOR\n2 1 21416 21440 21334 XOR\n2 1 21373 21334 21326 XOR\n2 1 21363 21326 21333 XOR\n2 1 21330 21333 21414 XOR\n2 1 21376 21329 21412 XOR\n2 1 21326 21327 21410 XOR\n2 1 21411 21448 21409 AND\n",
"2 1 21418 21447 21408 AND\n2 1 21421 623 21407 AND\n2 1 21407 21409 21389 XOR\n2 1 21412 21442 21406 AND\n2 1 21415 21454 21405 AND\n2 1 21425 21444 21404 AND\n2 1 21404 21405 21343 XOR\n2 1 21413 21445 21403 AND\n2 1 21410 21443 21402 AND\n2 1 21402 21405 21358 XOR\n1 1 21358 21355 INV\n2 1 21402 21403 21354 XOR\n2 1 21414 21446 21401 AND\n2 1 21411 21452 21400 AND\n2 1 21418 21449 21399 AND\n2 1 21421 21453 21398 AND\n2 1 21412 21457 21397 AND\n2 1 21397 21401 21374 XOR\n2 1 21406 21397 21359 XOR\n1 1 21374 21352 INV\n2 1 21415 21450 21396 AND\n2 1 21404 21396 21361 XOR\n2 1 21425 21451 21395 AND\n2 1 21352 21395 21351 XOR\n2 1 21351 21389 21347 XOR\n2 1 21413 21456 21394 AND\n2 1 21394 21347 21350 XOR\n2 1 21410 21458 21393 AND\n2 1 21393 21394 21388 XOR\n2 1 21399 21388 21370 XOR\n2 1 21400 21370 21371 XOR\n2 1 21408 21371 21375 XOR\n2 1 21409 21375 21380 XOR\n2 1 21361 21388 21357 XOR\n2 1 21389 21357 21360 XOR\n2 1 21359 21360 21462 XOR\n2 1 21352 21357 21356 XOR\n2 1 21355 21356 21461 XOR\n2 1 21380 21354 21460 XOR\n2 1 21370 21347 21346 XOR\n2 1 21407 21375 21344 XOR\n2 1 21343 21344 36690 XOR\n2 1 36690 516 1412 XOR\n2 1 548 1412 1444 XOR\n2 1 580 1444 1476 XOR\n2 1 612 1476 1508 XOR\n2 1 21414 21455 21392 AND\n2 1 21403 21392 21353 XOR\n1 1 21353 21349 INV\n2 1 21349 21350 21459 XOR\n1 1 21462 36687 INV\n2 1 36687 519 1415 XOR\n2 1 551 1415 1447 XOR\n2 1 583 1447 1479 XOR\n2 1 615 1479 1511 XOR\n1 1 21461 36688 INV\n2 1 36688 518 1414 XOR\n2 1 550 1414 1446 XOR\n2 1 582 1446 1478 XOR\n2 1 614 1478 1510 XOR\n2 1 1510 1508 20528 XOR\n1 1 21460 36693 INV\n2 1 36693 513 1560 XOR\n1 1 1560 1409 INV\n2 1 545 1560 1561 XOR\n1 1 1561 1441 INV\n2 1 577 1561 1562 XOR\n2 1 609 1562 1563 XOR\n1 1 1563 1505 INV\n1 1 1562 1473 INV\n2 1 1511 1505 20535 XOR\n1 1 21459 36692 INV\n2 1 36692 514 1410 XOR\n2 1 546 1410 1442 XOR\n2 1 578 1442 1474 XOR\n2 1 610 1474 1506 XOR\n2 1 1506 20535 20620 XOR\n2 1 1510 20620 20616 XOR\n2 1 20620 20616 20603 AND\n2 1 614 612 23030 XOR\n2 1 615 609 23037 XOR\n2 1 610 23037 23122 XOR\n2 1 614 23122 23118 XOR\n2 1 23122 23118 23105 AND\n2 1 18903 18904 32689 XOR\n2 1 32689 18878 36659 XOR\n2 1 36659 643 515 XOR\n2 1 675 515 547 XOR\n2 1 707 547 579 XOR\n2 1 739 579 611 XOR\n2 1 611 609 23033 XOR\n2 1 23033 610 22992 XOR\n2 1 615 22992 23121 XOR\n2 1 23121 615 23107 AND\n2 1 18900 32689 18880 XOR\n2 1 18896 18880 18846 XOR\n1 1 18846 18843 INV\n2 1 18843 18844 36657 XOR\n2 1 36657 645 517 XOR\n2 1 677 517 549 XOR\n2 1 709 549 581 XOR\n2 1 741 581 613 XOR\n2 1 18901 18880 18840 XOR\n2 1 18869 18840 36662 XOR\n2 1 36662 640 512 XOR\n2 1 672 512 544 XOR\n2 1 704 544 576 XOR\n2 1 736 576 608 XOR\n2 1 610 608 23031 XOR\n2 1 613 23030 23032 XOR\n2 1 609 23032 23113 XOR\n2 1 610 23032 23110 XOR\n2 1 23037 23032 23112 XOR\n2 1 611 608 23124 XOR\n2 1 23031 23037 23119 XOR\n2 1 23030 23124 23116 XOR\n2 1 615 23116 23115 XOR\n2 1 614 613 23047 XOR\n2 1 23047 23119 23117 XOR\n2 1 23124 23047 23120 XOR\n2 1 613 611 23126 XOR\n2 1 23031 23126 23111 XOR\n2 1 612 613 23007 XOR\n2 1 23033 23031 22993 XOR\n2 1 23030 22993 23114 XOR\n2 1 608 614 23125 XOR\n2 1 608 613 23123 XOR\n2 1 23116 23120 23109 AND\n",
"2 1 23109 23033 23036 XOR\n2 1 23117 23115 23108 AND\n2 1 23125 23110 23106 AND\n2 1 23106 23031 23035 XOR\n2 1 23119 23112 23104 AND\n2 1 23124 23113 23103 AND\n2 1 23103 23032 23034 XOR\n2 1 23036 23034 23040 XOR\n2 1 608 23040 23045 XOR\n2 1 23126 23111 23102 AND\n2 1 23102 23108 23054 XOR\n2 1 23054 23045 23100 XOR\n2 1 23102 23103 23006 XOR\n2 1 23006 23007 23053 XOR\n2 1 23053 23035 23052 XOR\n2 1 23105 23052 23099 XOR\n2 1 23123 23114 23101 AND\n2 1 23101 23104 23055 XOR\n2 1 23101 23107 23059 XOR\n2 1 23059 23031 23046 XOR\n2 1 23054 23046 23097 XOR\n2 1 23102 23055 23049 XOR\n2 1 23035 23055 23009 XOR\n2 1 23009 23034 23098 XOR\n2 1 23040 23059 23008 XOR\n2 1 610 23008 23051 XOR\n2 1 23105 23049 23005 XOR\n2 1 614 23005 23092 XOR\n2 1 23100 23099 23096 AND\n2 1 23096 23051 23091 XOR\n2 1 23096 23098 23095 XOR\n2 1 23097 23095 23094 AND\n2 1 23094 23051 23093 XOR\n2 1 23094 23106 23000 XOR\n2 1 23000 23036 22996 XOR\n2 1 608 22996 22999 XOR\n2 1 23094 23045 22997 XOR\n2 1 610 22996 22995 XOR\n2 1 23091 23092 23090 AND\n2 1 23090 23098 23089 XOR\n2 1 23096 23090 23088 XOR\n2 1 23090 23049 23004 XOR\n2 1 23090 23107 23003 XOR\n2 1 23003 23104 22998 XOR\n2 1 22998 22999 23081 XOR\n2 1 23098 23088 23087 AND\n2 1 23087 23095 23085 XOR\n2 1 23087 23105 23058 XOR\n2 1 23058 23052 23079 XOR\n2 1 614 23058 23041 XOR\n2 1 23041 23004 23086 XOR\n2 1 23093 23085 23084 AND\n2 1 23084 23054 23044 XOR\n2 1 23044 23046 23083 XOR\n2 1 23084 23108 23002 XOR\n2 1 23041 23002 22994 XOR\n2 1 23031 22994 23001 XOR\n2 1 22998 23001 23082 XOR\n2 1 23044 22997 23080 XOR\n2 1 22994 22995 23078 XOR\n2 1 23079 23116 23077 AND\n2 1 23086 23115 23076 AND\n2 1 23089 615 23075 AND\n2 1 23075 23077 23057 XOR\n2 1 23080 23110 23074 AND\n2 1 23083 23122 23073 AND\n2 1 23093 23112 23072 AND\n2 1 23072 23073 23011 XOR\n2 1 23081 23113 23071 AND\n2 1 23078 23111 23070 AND\n2 1 23070 23073 23026 XOR\n1 1 23026 23023 INV\n2 1 23070 23071 23022 XOR\n2 1 23082 23114 23069 AND\n2 1 23079 23120 23068 AND\n2 1 23086 23117 23067 AND\n2 1 23089 23121 23066 AND\n2 1 23080 23125 23065 AND\n2 1 23065 23069 23042 XOR\n2 1 23074 23065 23027 XOR\n1 1 23042 23020 INV\n2 1 23083 23118 23064 AND\n2 1 23072 23064 23029 XOR\n2 1 23093 23119 23063 AND\n2 1 23020 23063 23019 XOR\n2 1 23019 23057 23015 XOR\n2 1 23081 23124 23062 AND\n2 1 23062 23015 23018 XOR\n2 1 23078 23126 23061 AND\n2 1 23061 23062 23056 XOR\n2 1 23067 23056 23038 XOR\n2 1 23068 23038 23039 XOR\n2 1 23076 23039 23043 XOR\n2 1 23077 23043 23048 XOR\n2 1 23029 23056 23025 XOR\n2 1 23057 23025 23028 XOR\n2 1 23027 23028 23130 XOR\n2 1 23020 23025 23024 XOR\n2 1 23023 23024 23129 XOR\n2 1 23048 23022 23128 XOR\n2 1 23038 23015 23014 XOR\n2 1 23075 23043 23012 XOR\n2 1 23011 23012 36666 XOR\n2 1 36666 540 1436 XOR\n2 1 572 1436 1468 XOR\n2 1 604 1468 1500 XOR\n2 1 636 1500 1532 XOR\n2 1 23082 23123 23060 AND\n2 1 23071 23060 23021 XOR\n1 1 23021 23017 INV\n2 1 23017 23018 23127 XOR\n1 1 23130 36663 INV\n2 1 36663 543 1439 XOR\n2 1 575 1439 1471 XOR\n2 1 607 1471 1503 XOR\n2 1 639 1503 1535 XOR\n1 1 23129 36664 INV\n1 1 23128 36669 INV\n2 1 36669 537 1433 XOR\n2 1 569 1433 1465 XOR\n2 1 601 1465 1497 XOR\n2 1 633 1497 1529 XOR\n2 1 1535 1529 21230 XOR\n1 1 23127 36668 INV\n2 1 36668 538 1434 XOR\n2 1 570 1434 1466 XOR\n2 1 602 1466 1498 XOR\n2 1 634 1498 1530 XOR\n",
"2 1 1530 21230 21315 XOR\n2 1 36664 542 1438 XOR\n2 1 574 1438 1470 XOR\n2 1 606 1470 1502 XOR\n2 1 638 1502 1534 XOR\n2 1 1534 1532 21223 XOR\n2 1 1534 21315 21311 XOR\n2 1 21315 21311 21298 AND\n2 1 21405 21406 32707 XOR\n2 1 21402 32707 21382 XOR\n2 1 21403 21382 21342 XOR\n2 1 21398 21382 21348 XOR\n1 1 21348 21345 INV\n2 1 21345 21346 36689 XOR\n2 1 36689 517 1413 XOR\n2 1 549 1413 1445 XOR\n2 1 581 1445 1477 XOR\n2 1 613 1477 1509 XOR\n2 1 1509 20528 20530 XOR\n2 1 1505 20530 20611 XOR\n2 1 1506 20530 20608 XOR\n2 1 20535 20530 20610 XOR\n2 1 1510 1509 20545 XOR\n2 1 1508 1509 20505 XOR\n2 1 21371 21342 36694 XOR\n2 1 36694 512 1408 XOR\n2 1 544 1408 1440 XOR\n2 1 576 1440 1472 XOR\n2 1 608 1472 1504 XOR\n2 1 1506 1504 20529 XOR\n2 1 20529 20535 20617 XOR\n2 1 20545 20617 20615 XOR\n2 1 1504 1510 20623 XOR\n2 1 1504 1509 20621 XOR\n2 1 20623 20608 20604 AND\n2 1 20604 20529 20533 XOR\n2 1 20617 20610 20602 AND\n2 1 32707 21380 36691 XOR\n2 1 36691 515 1411 XOR\n2 1 547 1411 1443 XOR\n2 1 579 1443 1475 XOR\n2 1 611 1475 1507 XOR\n2 1 1507 1505 20531 XOR\n2 1 1507 1504 20622 XOR\n2 1 20622 20545 20618 XOR\n2 1 20528 20622 20614 XOR\n2 1 1511 20614 20613 XOR\n2 1 1509 1507 20624 XOR\n2 1 20529 20624 20609 XOR\n2 1 20531 20529 20491 XOR\n2 1 20528 20491 20612 XOR\n2 1 20531 1506 20490 XOR\n2 1 1511 20490 20619 XOR\n2 1 20614 20618 20607 AND\n2 1 20607 20531 20534 XOR\n2 1 20615 20613 20606 AND\n2 1 20619 1511 20605 AND\n2 1 20622 20611 20601 AND\n2 1 20601 20530 20532 XOR\n2 1 20534 20532 20538 XOR\n2 1 1504 20538 20543 XOR\n2 1 20624 20609 20600 AND\n2 1 20600 20606 20552 XOR\n2 1 20552 20543 20598 XOR\n2 1 20600 20601 20504 XOR\n2 1 20504 20505 20551 XOR\n2 1 20551 20533 20550 XOR\n2 1 20603 20550 20597 XOR\n2 1 20621 20612 20599 AND\n2 1 20599 20602 20553 XOR\n2 1 20599 20605 20557 XOR\n2 1 20557 20529 20544 XOR\n2 1 20552 20544 20595 XOR\n2 1 20600 20553 20547 XOR\n2 1 20533 20553 20507 XOR\n2 1 20507 20532 20596 XOR\n2 1 20538 20557 20506 XOR\n2 1 1506 20506 20549 XOR\n2 1 20603 20547 20503 XOR\n2 1 1510 20503 20590 XOR\n2 1 20598 20597 20594 AND\n2 1 20594 20549 20589 XOR\n2 1 20594 20596 20593 XOR\n2 1 20595 20593 20592 AND\n2 1 20592 20549 20591 XOR\n2 1 20592 20604 20498 XOR\n2 1 20498 20534 20494 XOR\n2 1 1504 20494 20497 XOR\n2 1 20592 20543 20495 XOR\n2 1 1506 20494 20493 XOR\n2 1 20589 20590 20588 AND\n2 1 20588 20596 20587 XOR\n2 1 20594 20588 20586 XOR\n2 1 20588 20547 20502 XOR\n2 1 20588 20605 20501 XOR\n2 1 20501 20602 20496 XOR\n2 1 20496 20497 20579 XOR\n2 1 20596 20586 20585 AND\n2 1 20585 20593 20583 XOR\n2 1 20585 20603 20556 XOR\n2 1 20556 20550 20577 XOR\n2 1 1510 20556 20539 XOR\n2 1 20539 20502 20584 XOR\n2 1 20591 20583 20582 AND\n2 1 20582 20552 20542 XOR\n2 1 20542 20544 20581 XOR\n2 1 20582 20606 20500 XOR\n2 1 20539 20500 20492 XOR\n2 1 20529 20492 20499 XOR\n2 1 20496 20499 20580 XOR\n2 1 20542 20495 20578 XOR\n2 1 20492 20493 20576 XOR\n2 1 20577 20614 20575 AND\n2 1 20584 20613 20574 AND\n2 1 20587 1511 20573 AND\n2 1 20573 20575 20555 XOR\n2 1 20578 20608 20572 AND\n2 1 20581 20620 20571 AND\n2 1 20591 20610 20570 AND\n2 1 20570 20571 20509 XOR\n2 1 20579 20611 20569 AND\n2 1 20576 20609 20568 AND\n2 1 20568 20571 20524 XOR\n1 1 20524 20521 INV\n2 1 20568 20569 20520 XOR\n2 1 20580 20612 20567 AND\n2 1 20577 20618 20566 AND\n2 1 20584 20615 20565 AND\n",
"2 1 20587 20619 20564 AND\n2 1 20578 20623 20563 AND\n2 1 20563 20567 20540 XOR\n2 1 20572 20563 20525 XOR\n1 1 20540 20518 INV\n2 1 20581 20616 20562 AND\n2 1 20570 20562 20527 XOR\n2 1 20591 20617 20561 AND\n2 1 20518 20561 20517 XOR\n2 1 20517 20555 20513 XOR\n2 1 20579 20622 20560 AND\n2 1 20560 20513 20516 XOR\n2 1 20576 20624 20559 AND\n2 1 20559 20560 20554 XOR\n2 1 20565 20554 20536 XOR\n2 1 20566 20536 20537 XOR\n2 1 20574 20537 20541 XOR\n2 1 20575 20541 20546 XOR\n2 1 20527 20554 20523 XOR\n2 1 20555 20523 20526 XOR\n2 1 20525 20526 20628 XOR\n2 1 20518 20523 20522 XOR\n2 1 20521 20522 20627 XOR\n2 1 20546 20520 20626 XOR\n2 1 20536 20513 20512 XOR\n2 1 20573 20541 20510 XOR\n2 1 20509 20510 36698 XOR\n2 1 36698 1436 1308 XOR\n2 1 1468 1308 1340 XOR\n2 1 1500 1340 1372 XOR\n2 1 1532 1372 1404 XOR\n2 1 20580 20621 20558 AND\n2 1 20569 20558 20519 XOR\n1 1 20519 20515 INV\n2 1 20515 20516 20625 XOR\n1 1 20628 36695 INV\n2 1 36695 1439 1311 XOR\n2 1 1471 1311 1343 XOR\n2 1 1503 1343 1375 XOR\n2 1 1535 1375 1407 XOR\n1 1 20627 36696 INV\n2 1 36696 1438 1310 XOR\n2 1 1470 1310 1342 XOR\n2 1 1502 1342 1374 XOR\n2 1 1534 1374 1406 XOR\n2 1 1406 1404 12734 XOR\n1 1 20626 36701 INV\n2 1 36701 1433 1305 XOR\n1 1 20625 36700 INV\n2 1 36700 1434 1306 XOR\n2 1 1466 1306 1338 XOR\n2 1 1498 1338 1370 XOR\n2 1 1530 1370 1402 XOR\n2 1 1465 1305 1337 XOR\n2 1 1497 1337 1369 XOR\n2 1 1529 1369 1401 XOR\n2 1 1407 1401 12741 XOR\n2 1 1402 12741 12827 XOR\n2 1 1406 12827 12823 XOR\n2 1 12827 12823 12810 AND\n2 1 20571 20572 32701 XOR\n2 1 32701 20546 36699 XOR\n2 1 20568 32701 20548 XOR\n2 1 20564 20548 20514 XOR\n1 1 20514 20511 INV\n2 1 20511 20512 36697 XOR\n2 1 20569 20548 20508 XOR\n2 1 20537 20508 36702 XOR\n2 1 23073 23074 32719 XOR\n2 1 23070 32719 23050 XOR\n2 1 23071 23050 23010 XOR\n2 1 23039 23010 36670 XOR\n2 1 23066 23050 23016 XOR\n1 1 23016 23013 INV\n2 1 23013 23014 36665 XOR\n2 1 32719 23048 36667 XOR\n2 1 24609 24610 32723 XOR\n2 1 24606 32723 24586 XOR\n2 1 24602 24586 24552 XOR\n1 1 24552 24549 INV\n2 1 24607 24586 24546 XOR\n2 1 24575 24546 36606 XOR\n2 1 36606 792 664 XOR\n2 1 36638 664 536 XOR\n2 1 36670 536 1432 XOR\n2 1 824 664 696 XOR\n2 1 696 536 568 XOR\n2 1 568 1432 1464 XOR\n2 1 856 696 728 XOR\n2 1 728 568 600 XOR\n2 1 888 728 760 XOR\n2 1 760 766 23682 XOR\n2 1 760 600 632 XOR\n2 1 634 632 18722 XOR\n2 1 18722 18728 18810 XOR\n2 1 632 638 18816 XOR\n2 1 600 1464 1496 XOR\n2 1 632 1496 1528 XOR\n2 1 1530 1528 21224 XOR\n2 1 21224 21230 21312 XOR\n2 1 1528 1534 21318 XOR\n2 1 24549 24550 36601 XOR\n2 1 36601 797 669 XOR\n2 1 36633 669 541 XOR\n2 1 829 669 701 XOR\n2 1 701 541 573 XOR\n2 1 861 701 733 XOR\n2 1 733 573 605 XOR\n2 1 893 733 765 XOR\n2 1 766 765 23603 XOR\n2 1 765 23586 23588 XOR\n2 1 764 765 23563 XOR\n2 1 761 23588 23670 XOR\n2 1 23593 23588 23669 XOR\n2 1 765 605 637 XOR\n2 1 632 637 18814 XOR\n2 1 637 18721 18723 XOR\n2 1 634 18723 18801 XOR\n2 1 18728 18723 18803 XOR\n2 1 18816 18801 18797 AND\n2 1 18797 18722 18726 XOR\n2 1 18810 18803 18795 AND\n2 1 633 18723 18804 XOR\n2 1 636 637 18698 XOR\n2 1 760 765 23680 XOR\n2 1 638 637 18738 XOR\n2 1 18738 18810 18808 XOR\n2 1 762 23588 23667 XOR\n",
"2 1 762 760 23587 XOR\n2 1 23587 23593 23676 XOR\n2 1 23603 23676 23674 XOR\n2 1 23676 23669 23661 AND\n2 1 36665 541 1437 XOR\n2 1 36697 1437 1309 XOR\n2 1 36702 1432 1304 XOR\n2 1 1464 1304 1336 XOR\n2 1 1496 1336 1368 XOR\n2 1 1528 1368 1400 XOR\n2 1 1402 1400 12735 XOR\n2 1 12735 12741 12824 XOR\n2 1 1400 1406 12830 XOR\n2 1 573 1437 1469 XOR\n2 1 1469 1309 1341 XOR\n2 1 605 1469 1501 XOR\n2 1 637 1501 1533 XOR\n2 1 1532 1533 21200 XOR\n2 1 1528 1533 21316 XOR\n2 1 1501 1341 1373 XOR\n2 1 1533 1373 1405 XOR\n2 1 1405 12734 12736 XOR\n2 1 1401 12736 12818 XOR\n2 1 1402 12736 12815 XOR\n2 1 12741 12736 12817 XOR\n2 1 1406 1405 12752 XOR\n2 1 1404 1405 12711 XOR\n2 1 1534 1533 21240 XOR\n2 1 21240 21312 21310 XOR\n2 1 1533 21223 21225 XOR\n2 1 1530 21225 21303 XOR\n2 1 21230 21225 21305 XOR\n2 1 21318 21303 21299 AND\n2 1 21312 21305 21297 AND\n2 1 21299 21224 21228 XOR\n2 1 12752 12824 12822 XOR\n2 1 1400 1405 12828 XOR\n2 1 12830 12815 12811 AND\n2 1 12811 12735 12739 XOR\n2 1 12824 12817 12809 AND\n2 1 1529 21225 21306 XOR\n2 1 23682 23667 23663 AND\n2 1 23663 23587 23591 XOR\n2 1 32723 24584 36603 XOR\n2 1 36603 795 667 XOR\n2 1 827 667 699 XOR\n2 1 859 699 731 XOR\n2 1 891 731 763 XOR\n2 1 36635 667 539 XOR\n2 1 699 539 571 XOR\n2 1 36667 539 1435 XOR\n2 1 731 571 603 XOR\n2 1 763 603 635 XOR\n2 1 571 1435 1467 XOR\n2 1 603 1467 1499 XOR\n2 1 635 1499 1531 XOR\n2 1 36699 1435 1307 XOR\n2 1 635 633 18724 XOR\n2 1 635 632 18815 XOR\n2 1 18815 18738 18811 XOR\n2 1 18721 18815 18807 XOR\n2 1 639 18807 18806 XOR\n2 1 637 635 18817 XOR\n2 1 18722 18817 18802 XOR\n2 1 18724 18722 18684 XOR\n2 1 18721 18684 18805 XOR\n2 1 18724 634 18683 XOR\n2 1 639 18683 18812 XOR\n2 1 18807 18811 18800 AND\n2 1 18800 18724 18727 XOR\n2 1 18808 18806 18799 AND\n2 1 18812 639 18798 AND\n2 1 18815 18804 18794 AND\n2 1 18794 18723 18725 XOR\n2 1 18727 18725 18731 XOR\n2 1 632 18731 18736 XOR\n2 1 18817 18802 18793 AND\n2 1 18793 18799 18745 XOR\n2 1 18745 18736 18791 XOR\n2 1 18793 18794 18697 XOR\n2 1 18697 18698 18744 XOR\n2 1 18744 18726 18743 XOR\n2 1 18796 18743 18790 XOR\n2 1 18814 18805 18792 AND\n2 1 18792 18795 18746 XOR\n2 1 18792 18798 18750 XOR\n2 1 18750 18722 18737 XOR\n2 1 18745 18737 18788 XOR\n2 1 18793 18746 18740 XOR\n2 1 18726 18746 18700 XOR\n2 1 18700 18725 18789 XOR\n2 1 18731 18750 18699 XOR\n2 1 634 18699 18742 XOR\n2 1 18796 18740 18696 XOR\n2 1 638 18696 18783 XOR\n2 1 18791 18790 18787 AND\n2 1 18787 18742 18782 XOR\n2 1 18787 18789 18786 XOR\n2 1 18788 18786 18785 AND\n2 1 18785 18742 18784 XOR\n2 1 18785 18797 18691 XOR\n2 1 18691 18727 18687 XOR\n2 1 632 18687 18690 XOR\n2 1 18785 18736 18688 XOR\n2 1 634 18687 18686 XOR\n2 1 18782 18783 18781 AND\n2 1 18781 18789 18780 XOR\n2 1 18787 18781 18779 XOR\n2 1 18781 18740 18695 XOR\n2 1 18781 18798 18694 XOR\n2 1 18694 18795 18689 XOR\n2 1 18689 18690 18772 XOR\n2 1 18789 18779 18778 AND\n2 1 18778 18786 18776 XOR\n2 1 18778 18796 18749 XOR\n2 1 18749 18743 18770 XOR\n2 1 638 18749 18732 XOR\n2 1 18732 18695 18777 XOR\n2 1 18784 18776 18775 AND\n2 1 18775 18745 18735 XOR\n2 1 18735 18737 18774 XOR\n2 1 18775 18799 18693 XOR\n2 1 18732 18693 18685 XOR\n2 1 18722 18685 18692 XOR\n2 1 18689 18692 18773 XOR\n2 1 18735 18688 18771 XOR\n2 1 18685 18686 18769 XOR\n2 1 18770 18807 18768 AND\n",
"2 1 18777 18806 18767 AND\n2 1 18780 639 18766 AND\n2 1 18766 18768 18748 XOR\n2 1 18771 18801 18765 AND\n2 1 18774 18813 18764 AND\n2 1 18784 18803 18763 AND\n2 1 18763 18764 18702 XOR\n2 1 18772 18804 18762 AND\n2 1 18769 18802 18761 AND\n2 1 18761 18764 18717 XOR\n1 1 18717 18714 INV\n2 1 18761 18762 18713 XOR\n2 1 18773 18805 18760 AND\n2 1 18770 18811 18759 AND\n2 1 18777 18808 18758 AND\n2 1 18780 18812 18757 AND\n2 1 18771 18816 18756 AND\n2 1 18756 18760 18733 XOR\n2 1 18765 18756 18718 XOR\n1 1 18733 18711 INV\n2 1 18774 18809 18755 AND\n2 1 18763 18755 18720 XOR\n2 1 18784 18810 18754 AND\n2 1 18711 18754 18710 XOR\n2 1 18710 18748 18706 XOR\n2 1 18772 18815 18753 AND\n2 1 18753 18706 18709 XOR\n2 1 18769 18817 18752 AND\n2 1 18752 18753 18747 XOR\n2 1 18758 18747 18729 XOR\n2 1 18759 18729 18730 XOR\n2 1 18767 18730 18734 XOR\n2 1 18768 18734 18739 XOR\n2 1 18720 18747 18716 XOR\n2 1 18748 18716 18719 XOR\n2 1 18718 18719 18821 XOR\n2 1 18711 18716 18715 XOR\n2 1 18714 18715 18820 XOR\n2 1 18739 18713 18819 XOR\n2 1 18729 18706 18705 XOR\n2 1 18766 18734 18703 XOR\n2 1 18702 18703 36674 XOR\n2 1 18773 18814 18751 AND\n2 1 18762 18751 18712 XOR\n1 1 18712 18708 INV\n2 1 18708 18709 18818 XOR\n1 1 18821 36671 INV\n1 1 18820 36672 INV\n1 1 18819 36677 INV\n1 1 18818 36676 INV\n2 1 1531 1529 21226 XOR\n2 1 1531 1528 21317 XOR\n2 1 21317 21240 21313 XOR\n2 1 21223 21317 21309 XOR\n2 1 1535 21309 21308 XOR\n2 1 1533 1531 21319 XOR\n2 1 21224 21319 21304 XOR\n2 1 21226 21224 21186 XOR\n2 1 21223 21186 21307 XOR\n2 1 21226 1530 21185 XOR\n2 1 1535 21185 21314 XOR\n2 1 21309 21313 21302 AND\n2 1 21302 21226 21229 XOR\n2 1 21310 21308 21301 AND\n2 1 21314 1535 21300 AND\n2 1 21317 21306 21296 AND\n2 1 21296 21225 21227 XOR\n2 1 21229 21227 21233 XOR\n2 1 1528 21233 21238 XOR\n2 1 21319 21304 21295 AND\n2 1 21295 21301 21247 XOR\n2 1 21247 21238 21293 XOR\n2 1 21295 21296 21199 XOR\n2 1 21199 21200 21246 XOR\n2 1 21246 21228 21245 XOR\n2 1 21298 21245 21292 XOR\n2 1 21316 21307 21294 AND\n2 1 21294 21297 21248 XOR\n2 1 21294 21300 21252 XOR\n2 1 21252 21224 21239 XOR\n2 1 21247 21239 21290 XOR\n2 1 21295 21248 21242 XOR\n2 1 21228 21248 21202 XOR\n2 1 21202 21227 21291 XOR\n2 1 21233 21252 21201 XOR\n2 1 1530 21201 21244 XOR\n2 1 21298 21242 21198 XOR\n2 1 1534 21198 21285 XOR\n2 1 21293 21292 21289 AND\n2 1 21289 21244 21284 XOR\n2 1 21289 21291 21288 XOR\n2 1 21290 21288 21287 AND\n2 1 21287 21244 21286 XOR\n2 1 21287 21299 21193 XOR\n2 1 21193 21229 21189 XOR\n2 1 1528 21189 21192 XOR\n2 1 21287 21238 21190 XOR\n2 1 1530 21189 21188 XOR\n2 1 21284 21285 21283 AND\n2 1 21283 21291 21282 XOR\n2 1 21289 21283 21281 XOR\n2 1 21283 21242 21197 XOR\n2 1 21283 21300 21196 XOR\n2 1 21196 21297 21191 XOR\n2 1 21191 21192 21274 XOR\n2 1 21291 21281 21280 AND\n2 1 21280 21288 21278 XOR\n2 1 21280 21298 21251 XOR\n2 1 21251 21245 21272 XOR\n2 1 1534 21251 21234 XOR\n2 1 21234 21197 21279 XOR\n2 1 21286 21278 21277 AND\n2 1 21277 21247 21237 XOR\n2 1 21237 21239 21276 XOR\n2 1 21277 21301 21195 XOR\n2 1 21234 21195 21187 XOR\n2 1 21224 21187 21194 XOR\n2 1 21191 21194 21275 XOR\n2 1 21237 21190 21273 XOR\n2 1 21187 21188 21271 XOR\n2 1 21272 21309 21270 AND\n2 1 21279 21308 21269 AND\n2 1 21282 1535 21268 AND\n2 1 21268 21270 21250 XOR\n2 1 21273 21303 21267 AND\n2 1 21276 21315 21266 AND\n2 1 21286 21305 21265 AND\n2 1 21265 21266 21204 XOR\n",
"2 1 21274 21306 21264 AND\n2 1 21271 21304 21263 AND\n2 1 21263 21266 21219 XOR\n1 1 21219 21216 INV\n2 1 21263 21264 21215 XOR\n2 1 21275 21307 21262 AND\n2 1 21272 21313 21261 AND\n2 1 21279 21310 21260 AND\n2 1 21282 21314 21259 AND\n2 1 21273 21318 21258 AND\n2 1 21258 21262 21235 XOR\n2 1 21267 21258 21220 XOR\n1 1 21235 21213 INV\n2 1 21276 21311 21257 AND\n2 1 21265 21257 21222 XOR\n2 1 21286 21312 21256 AND\n2 1 21213 21256 21212 XOR\n2 1 21212 21250 21208 XOR\n2 1 21274 21317 21255 AND\n2 1 21255 21208 21211 XOR\n2 1 21271 21319 21254 AND\n2 1 21254 21255 21249 XOR\n2 1 21260 21249 21231 XOR\n2 1 21261 21231 21232 XOR\n2 1 21269 21232 21236 XOR\n2 1 21270 21236 21241 XOR\n2 1 21222 21249 21218 XOR\n2 1 21250 21218 21221 XOR\n2 1 21220 21221 21323 XOR\n2 1 21213 21218 21217 XOR\n2 1 21216 21217 21322 XOR\n2 1 21241 21215 21321 XOR\n2 1 21231 21208 21207 XOR\n2 1 21268 21236 21205 XOR\n2 1 21204 21205 36706 XOR\n2 1 21275 21316 21253 AND\n2 1 21264 21253 21214 XOR\n1 1 21214 21210 INV\n2 1 21210 21211 21320 XOR\n1 1 21323 36703 INV\n1 1 21322 36704 INV\n1 1 21321 36709 INV\n1 1 21320 36708 INV\n2 1 1467 1307 1339 XOR\n2 1 1499 1339 1371 XOR\n2 1 1531 1371 1403 XOR\n2 1 1403 1401 12737 XOR\n2 1 1403 1400 12829 XOR\n2 1 12829 12752 12825 XOR\n2 1 12734 12829 12821 XOR\n2 1 1407 12821 12820 XOR\n2 1 1405 1403 12831 XOR\n2 1 12735 12831 12816 XOR\n2 1 12737 12735 12697 XOR\n2 1 12734 12697 12819 XOR\n2 1 12737 1402 12696 XOR\n2 1 1407 12696 12826 XOR\n2 1 12821 12825 12814 AND\n2 1 12814 12737 12740 XOR\n2 1 12822 12820 12813 AND\n2 1 12826 1407 12812 AND\n2 1 12829 12818 12808 AND\n2 1 12808 12736 12738 XOR\n2 1 12740 12738 12744 XOR\n2 1 1400 12744 12750 XOR\n2 1 12831 12816 12807 AND\n2 1 12807 12813 12759 XOR\n2 1 12759 12750 12805 XOR\n2 1 12807 12808 12710 XOR\n2 1 12710 12711 12758 XOR\n2 1 12758 12739 12757 XOR\n2 1 12810 12757 12804 XOR\n2 1 12828 12819 12806 AND\n2 1 12806 12809 12760 XOR\n2 1 12806 12812 12764 XOR\n2 1 12764 12735 12751 XOR\n2 1 12759 12751 12802 XOR\n2 1 12807 12760 12754 XOR\n2 1 12739 12760 12713 XOR\n2 1 12713 12738 12803 XOR\n2 1 12744 12764 12712 XOR\n2 1 1402 12712 12756 XOR\n2 1 12810 12754 12709 XOR\n2 1 1406 12709 12797 XOR\n2 1 12805 12804 12801 AND\n2 1 12801 12756 12796 XOR\n2 1 12801 12803 12800 XOR\n2 1 12802 12800 12799 AND\n2 1 12799 12756 12798 XOR\n2 1 12799 12811 12704 XOR\n2 1 12704 12740 12700 XOR\n2 1 1400 12700 12703 XOR\n2 1 12799 12750 12701 XOR\n2 1 1402 12700 12699 XOR\n2 1 12796 12797 12795 AND\n2 1 12795 12803 12794 XOR\n2 1 12801 12795 12793 XOR\n2 1 12795 12754 12708 XOR\n2 1 12795 12812 12707 XOR\n2 1 12707 12809 12702 XOR\n2 1 12702 12703 12786 XOR\n2 1 12803 12793 12792 AND\n2 1 12792 12800 12790 XOR\n2 1 12792 12810 12763 XOR\n2 1 12763 12757 12784 XOR\n2 1 1406 12763 12745 XOR\n2 1 12745 12708 12791 XOR\n2 1 12798 12790 12789 AND\n2 1 12789 12759 12749 XOR\n2 1 12749 12751 12788 XOR\n2 1 12789 12813 12706 XOR\n2 1 12745 12706 12698 XOR\n2 1 12735 12698 12705 XOR\n2 1 12702 12705 12787 XOR\n2 1 12749 12701 12785 XOR\n2 1 12698 12699 12783 XOR\n2 1 12784 12821 12782 AND\n2 1 12791 12820 12781 AND\n2 1 12794 1407 12780 AND\n2 1 12780 12782 12762 XOR\n2 1 12785 12815 12779 AND\n2 1 12788 12827 12778 AND\n2 1 12778 12779 12747 XOR\n2 1 12798 12817 12777 AND\n2 1 12777 12778 12715 XOR\n2 1 12786 12818 12776 AND\n2 1 12783 12816 12775 AND\n2 1 12775 12747 12755 XOR\n",
"2 1 12775 12778 12730 XOR\n1 1 12730 12727 INV\n2 1 12775 12776 12726 XOR\n2 1 12776 12755 12714 XOR\n2 1 12787 12819 12774 AND\n2 1 12784 12825 12773 AND\n2 1 12791 12822 12772 AND\n2 1 12794 12826 12771 AND\n2 1 12771 12755 12720 XOR\n1 1 12720 12717 INV\n2 1 12785 12830 12770 AND\n2 1 12770 12774 12746 XOR\n2 1 12779 12770 12731 XOR\n1 1 12746 12724 INV\n2 1 12788 12823 12769 AND\n2 1 12777 12769 12733 XOR\n2 1 12798 12824 12768 AND\n2 1 12724 12768 12723 XOR\n2 1 12723 12762 12719 XOR\n2 1 12786 12829 12767 AND\n2 1 12767 12719 12722 XOR\n2 1 12783 12831 12766 AND\n2 1 12766 12767 12761 XOR\n2 1 12772 12761 12742 XOR\n2 1 12773 12742 12743 XOR\n2 1 12781 12743 12748 XOR\n2 1 12782 12748 12753 XOR\n2 1 12747 12753 36739 XOR\n2 1 12733 12761 12729 XOR\n2 1 12762 12729 12732 XOR\n2 1 12731 12732 12835 XOR\n2 1 12724 12729 12728 XOR\n2 1 12727 12728 12834 XOR\n2 1 12753 12726 12833 XOR\n2 1 12742 12719 12718 XOR\n2 1 12717 12718 36737 XOR\n2 1 12780 12748 12716 XOR\n2 1 12715 12716 36738 XOR\n2 1 12743 12714 36742 XOR\n2 1 12787 12828 12765 AND\n2 1 12776 12765 12725 XOR\n1 1 12725 12721 INV\n2 1 12721 12722 12832 XOR\n1 1 12835 36735 INV\n1 1 12834 36736 INV\n1 1 12833 36741 INV\n1 1 12832 36740 INV\n2 1 763 761 23589 XOR\n2 1 763 760 23681 XOR\n2 1 23681 23603 23677 XOR\n2 1 23586 23681 23673 XOR\n2 1 767 23673 23672 XOR\n2 1 765 763 23683 XOR\n2 1 23587 23683 23668 XOR\n2 1 23589 23587 23549 XOR\n2 1 23586 23549 23671 XOR\n2 1 23589 762 23548 XOR\n2 1 767 23548 23678 XOR\n2 1 23673 23677 23666 AND\n2 1 23666 23589 23592 XOR\n2 1 23674 23672 23665 AND\n2 1 23678 767 23664 AND\n2 1 23681 23670 23660 AND\n2 1 23660 23588 23590 XOR\n2 1 23592 23590 23596 XOR\n2 1 760 23596 23601 XOR\n2 1 23683 23668 23659 AND\n2 1 23659 23665 23610 XOR\n2 1 23610 23601 23657 XOR\n2 1 23659 23660 23562 XOR\n2 1 23562 23563 23609 XOR\n2 1 23609 23591 23608 XOR\n2 1 23662 23608 23656 XOR\n2 1 23680 23671 23658 AND\n2 1 23658 23661 23611 XOR\n2 1 23658 23664 23615 XOR\n2 1 23615 23587 23602 XOR\n2 1 23610 23602 23654 XOR\n2 1 23659 23611 23605 XOR\n2 1 23591 23611 23565 XOR\n2 1 23565 23590 23655 XOR\n2 1 23596 23615 23564 XOR\n2 1 762 23564 23607 XOR\n2 1 23662 23605 23561 XOR\n2 1 766 23561 23649 XOR\n2 1 23657 23656 23653 AND\n2 1 23653 23607 23648 XOR\n2 1 23653 23655 23652 XOR\n2 1 23654 23652 23651 AND\n2 1 23651 23607 23650 XOR\n2 1 23651 23663 23556 XOR\n2 1 23556 23592 23552 XOR\n2 1 760 23552 23555 XOR\n2 1 23651 23601 23553 XOR\n2 1 762 23552 23551 XOR\n2 1 23648 23649 23647 AND\n2 1 23647 23655 23646 XOR\n2 1 23653 23647 23645 XOR\n2 1 23647 23605 23560 XOR\n2 1 23647 23664 23559 XOR\n2 1 23559 23661 23554 XOR\n2 1 23554 23555 23638 XOR\n2 1 23655 23645 23644 AND\n2 1 23644 23652 23642 XOR\n2 1 23644 23662 23614 XOR\n2 1 23614 23608 23636 XOR\n2 1 766 23614 23597 XOR\n2 1 23597 23560 23643 XOR\n2 1 23650 23642 23641 AND\n2 1 23641 23610 23600 XOR\n2 1 23600 23602 23640 XOR\n2 1 23641 23665 23558 XOR\n2 1 23597 23558 23550 XOR\n2 1 23587 23550 23557 XOR\n2 1 23554 23557 23639 XOR\n2 1 23600 23553 23637 XOR\n2 1 23550 23551 23635 XOR\n2 1 23636 23673 23634 AND\n2 1 23643 23672 23633 AND\n2 1 23646 767 23632 AND\n2 1 23632 23634 23613 XOR\n2 1 23637 23667 23631 AND\n2 1 23640 23679 23630 AND\n2 1 23630 23631 23616 XOR\n2 1 23650 23669 23629 AND\n2 1 23629 23630 23567 XOR\n2 1 23638 23670 23628 AND\n2 1 23635 23668 23627 AND\n",
"2 1 23627 23616 23606 XOR\n2 1 23627 23630 23582 XOR\n1 1 23582 23579 INV\n2 1 23627 23628 23578 XOR\n2 1 23628 23606 23566 XOR\n2 1 23639 23671 23626 AND\n2 1 23636 23677 23625 AND\n2 1 23643 23674 23624 AND\n2 1 23646 23678 23623 AND\n2 1 23623 23606 23572 XOR\n1 1 23572 23569 INV\n2 1 23637 23682 23622 AND\n2 1 23622 23626 23598 XOR\n2 1 23631 23622 23583 XOR\n1 1 23598 23576 INV\n2 1 23640 23675 23621 AND\n2 1 23629 23621 23585 XOR\n2 1 23650 23676 23620 AND\n2 1 23576 23620 23575 XOR\n2 1 23575 23613 23571 XOR\n2 1 23638 23681 23619 AND\n2 1 23619 23571 23574 XOR\n2 1 23635 23683 23618 AND\n2 1 23618 23619 23612 XOR\n2 1 23624 23612 23594 XOR\n2 1 23625 23594 23595 XOR\n2 1 23633 23595 23599 XOR\n2 1 23634 23599 23604 XOR\n2 1 23616 23604 36643 XOR\n2 1 36643 659 531 XOR\n2 1 691 531 563 XOR\n2 1 723 563 595 XOR\n2 1 755 595 627 XOR\n2 1 23585 23612 23581 XOR\n2 1 23613 23581 23584 XOR\n2 1 23583 23584 23687 XOR\n2 1 23576 23581 23580 XOR\n2 1 23579 23580 23686 XOR\n2 1 23604 23578 23685 XOR\n2 1 23594 23571 23570 XOR\n2 1 23569 23570 36641 XOR\n2 1 36641 661 533 XOR\n2 1 693 533 565 XOR\n2 1 725 565 597 XOR\n2 1 757 597 629 XOR\n2 1 629 627 15898 XOR\n2 1 23632 23599 23568 XOR\n2 1 23567 23568 36642 XOR\n2 1 36642 660 532 XOR\n2 1 36674 532 1428 XOR\n2 1 692 532 564 XOR\n2 1 724 564 596 XOR\n2 1 756 596 628 XOR\n2 1 628 629 15779 XOR\n2 1 564 1428 1460 XOR\n2 1 596 1460 1492 XOR\n2 1 628 1492 1524 XOR\n2 1 36706 1428 1300 XOR\n2 1 1460 1300 1332 XOR\n2 1 1492 1332 1364 XOR\n2 1 1524 1364 1396 XOR\n2 1 36738 1300 1172 XOR\n2 1 1332 1172 1204 XOR\n2 1 1364 1204 1236 XOR\n2 1 1396 1236 1268 XOR\n2 1 23595 23566 36646 XOR\n2 1 36646 656 528 XOR\n2 1 688 528 560 XOR\n2 1 720 560 592 XOR\n2 1 752 592 624 XOR\n2 1 627 624 15896 XOR\n2 1 624 629 15895 XOR\n2 1 23639 23680 23617 AND\n2 1 23628 23617 23577 XOR\n1 1 23577 23573 INV\n2 1 23573 23574 23684 XOR\n1 1 23687 36639 INV\n2 1 36639 663 535 XOR\n2 1 36671 535 1431 XOR\n2 1 695 535 567 XOR\n2 1 727 567 599 XOR\n2 1 759 599 631 XOR\n2 1 567 1431 1463 XOR\n2 1 599 1463 1495 XOR\n2 1 631 1495 1527 XOR\n2 1 36703 1431 1303 XOR\n2 1 1463 1303 1335 XOR\n2 1 1495 1335 1367 XOR\n2 1 1527 1367 1399 XOR\n2 1 36735 1303 1175 XOR\n2 1 1335 1175 1207 XOR\n2 1 1367 1207 1239 XOR\n2 1 1399 1239 1271 XOR\n1 1 23686 36640 INV\n2 1 36640 662 534 XOR\n2 1 36672 534 1430 XOR\n2 1 694 534 566 XOR\n2 1 726 566 598 XOR\n2 1 758 598 630 XOR\n2 1 630 628 15802 XOR\n2 1 629 15802 15804 XOR\n2 1 15802 15896 15888 XOR\n2 1 631 15888 15887 XOR\n2 1 630 629 15819 XOR\n2 1 15896 15819 15892 XOR\n2 1 624 630 15897 XOR\n2 1 15888 15892 15881 AND\n2 1 566 1430 1462 XOR\n2 1 598 1462 1494 XOR\n2 1 630 1494 1526 XOR\n2 1 36704 1430 1302 XOR\n2 1 1462 1302 1334 XOR\n2 1 36736 1302 1174 XOR\n2 1 1334 1174 1206 XOR\n2 1 1526 1524 22474 XOR\n1 1 23685 36645 INV\n2 1 36645 657 529 XOR\n2 1 36677 529 1425 XOR\n2 1 689 529 561 XOR\n2 1 721 561 593 XOR\n2 1 753 593 625 XOR\n2 1 561 1425 1457 XOR\n2 1 625 15804 15885 XOR\n2 1 627 625 15805 XOR\n2 1 15881 15805 15808 XOR\n2 1 631 625 15809 XOR\n2 1 15809 15804 15884 XOR\n2 1 15896 15885 15875 AND\n",
"2 1 15875 15804 15806 XOR\n2 1 15808 15806 15812 XOR\n2 1 624 15812 15817 XOR\n2 1 36709 1425 1297 XOR\n2 1 1457 1297 1329 XOR\n2 1 593 1457 1489 XOR\n2 1 625 1489 1521 XOR\n2 1 1489 1329 1361 XOR\n2 1 1521 1361 1393 XOR\n2 1 1399 1393 17616 XOR\n2 1 36741 1297 1169 XOR\n2 1 1329 1169 1201 XOR\n2 1 1361 1201 1233 XOR\n2 1 1393 1233 1265 XOR\n2 1 1271 1265 15670 XOR\n2 1 1527 1521 22481 XOR\n1 1 23684 36644 INV\n2 1 36644 658 530 XOR\n2 1 36676 530 1426 XOR\n2 1 690 530 562 XOR\n2 1 722 562 594 XOR\n2 1 754 594 626 XOR\n2 1 626 15804 15882 XOR\n2 1 626 624 15803 XOR\n2 1 15803 15898 15883 XOR\n2 1 15803 15809 15891 XOR\n2 1 15819 15891 15889 XOR\n2 1 626 15809 15894 XOR\n2 1 630 15894 15890 XOR\n2 1 15805 15803 15765 XOR\n2 1 15802 15765 15886 XOR\n2 1 15805 626 15764 XOR\n2 1 631 15764 15893 XOR\n2 1 15889 15887 15880 AND\n2 1 15893 631 15879 AND\n2 1 15897 15882 15878 AND\n2 1 15878 15803 15807 XOR\n2 1 15894 15890 15877 AND\n2 1 15891 15884 15876 AND\n2 1 15898 15883 15874 AND\n2 1 15874 15880 15826 XOR\n2 1 15826 15817 15872 XOR\n2 1 15874 15875 15778 XOR\n2 1 15778 15779 15825 XOR\n2 1 15825 15807 15824 XOR\n2 1 15877 15824 15871 XOR\n2 1 15895 15886 15873 AND\n2 1 15873 15876 15827 XOR\n2 1 15873 15879 15831 XOR\n2 1 15831 15803 15818 XOR\n2 1 15826 15818 15869 XOR\n2 1 15874 15827 15821 XOR\n2 1 15807 15827 15781 XOR\n2 1 15781 15806 15870 XOR\n2 1 15812 15831 15780 XOR\n2 1 626 15780 15823 XOR\n2 1 15877 15821 15777 XOR\n2 1 630 15777 15864 XOR\n2 1 15872 15871 15868 AND\n2 1 15868 15823 15863 XOR\n2 1 15868 15870 15867 XOR\n2 1 15869 15867 15866 AND\n2 1 15866 15823 15865 XOR\n2 1 15866 15878 15772 XOR\n2 1 15772 15808 15768 XOR\n2 1 624 15768 15771 XOR\n2 1 15866 15817 15769 XOR\n2 1 626 15768 15767 XOR\n2 1 15863 15864 15862 AND\n2 1 15862 15870 15861 XOR\n2 1 15868 15862 15860 XOR\n2 1 15862 15821 15776 XOR\n2 1 15862 15879 15775 XOR\n2 1 15775 15876 15770 XOR\n2 1 15770 15771 15853 XOR\n2 1 15870 15860 15859 AND\n2 1 15859 15867 15857 XOR\n2 1 15859 15877 15830 XOR\n2 1 15830 15824 15851 XOR\n2 1 630 15830 15813 XOR\n2 1 15813 15776 15858 XOR\n2 1 15865 15857 15856 AND\n2 1 15856 15826 15816 XOR\n2 1 15816 15818 15855 XOR\n2 1 15856 15880 15774 XOR\n2 1 15813 15774 15766 XOR\n2 1 15803 15766 15773 XOR\n2 1 15770 15773 15854 XOR\n2 1 15816 15769 15852 XOR\n2 1 15766 15767 15850 XOR\n2 1 15851 15888 15849 AND\n2 1 15858 15887 15848 AND\n2 1 15861 631 15847 AND\n2 1 15847 15849 15829 XOR\n2 1 15852 15882 15846 AND\n2 1 15855 15894 15845 AND\n2 1 15865 15884 15844 AND\n2 1 15844 15845 15783 XOR\n2 1 15853 15885 15843 AND\n2 1 15850 15883 15842 AND\n2 1 15842 15845 15798 XOR\n1 1 15798 15795 INV\n2 1 15842 15843 15794 XOR\n2 1 15854 15886 15841 AND\n2 1 15851 15892 15840 AND\n2 1 15858 15889 15839 AND\n2 1 15861 15893 15838 AND\n2 1 15852 15897 15837 AND\n2 1 15837 15841 15814 XOR\n2 1 15846 15837 15799 XOR\n1 1 15814 15792 INV\n2 1 15855 15890 15836 AND\n2 1 15844 15836 15801 XOR\n2 1 15865 15891 15835 AND\n2 1 15792 15835 15791 XOR\n2 1 15791 15829 15787 XOR\n2 1 15853 15896 15834 AND\n2 1 15834 15787 15790 XOR\n2 1 15850 15898 15833 AND\n2 1 15833 15834 15828 XOR\n2 1 15839 15828 15810 XOR\n2 1 15840 15810 15811 XOR\n2 1 15848 15811 15815 XOR\n2 1 15849 15815 15820 XOR\n2 1 15801 15828 15797 XOR\n2 1 15829 15797 15800 XOR\n2 1 15799 15800 15902 XOR\n2 1 15792 15797 15796 XOR\n",
"2 1 15795 15796 15901 XOR\n2 1 15820 15794 15900 XOR\n2 1 15810 15787 15786 XOR\n2 1 15847 15815 15784 XOR\n2 1 15783 15784 36682 XOR\n2 1 36682 524 1420 XOR\n2 1 15854 15895 15832 AND\n2 1 15843 15832 15793 XOR\n1 1 15793 15789 INV\n2 1 15789 15790 15899 XOR\n1 1 15902 36679 INV\n2 1 36679 527 1423 XOR\n1 1 15901 36680 INV\n2 1 36680 526 1422 XOR\n1 1 15900 36685 INV\n2 1 36685 521 1417 XOR\n1 1 15899 36684 INV\n2 1 36684 522 1418 XOR\n2 1 36708 1426 1298 XOR\n2 1 562 1426 1458 XOR\n2 1 556 1420 1452 XOR\n2 1 588 1452 1484 XOR\n2 1 620 1484 1516 XOR\n2 1 553 1417 1449 XOR\n2 1 554 1418 1450 XOR\n2 1 1458 1298 1330 XOR\n2 1 586 1450 1482 XOR\n2 1 618 1482 1514 XOR\n2 1 585 1449 1481 XOR\n2 1 617 1481 1513 XOR\n2 1 558 1422 1454 XOR\n2 1 590 1454 1486 XOR\n2 1 622 1486 1518 XOR\n2 1 1518 1516 12034 XOR\n2 1 594 1458 1490 XOR\n2 1 626 1490 1522 XOR\n2 1 1490 1330 1362 XOR\n2 1 1522 1362 1394 XOR\n2 1 1394 17616 17701 XOR\n2 1 559 1423 1455 XOR\n2 1 591 1455 1487 XOR\n2 1 623 1487 1519 XOR\n2 1 1519 1513 12041 XOR\n2 1 1514 12041 12127 XOR\n2 1 1518 12127 12123 XOR\n2 1 12127 12123 12110 AND\n2 1 36740 1298 1170 XOR\n2 1 1330 1170 1202 XOR\n2 1 1362 1202 1234 XOR\n2 1 1394 1234 1266 XOR\n2 1 1266 15670 15755 XOR\n2 1 1522 22481 22566 XOR\n2 1 1526 22566 22562 XOR\n2 1 22566 22562 22549 AND\n2 1 1494 1334 1366 XOR\n2 1 1526 1366 1398 XOR\n2 1 1398 1396 17609 XOR\n2 1 1398 17701 17697 XOR\n2 1 17701 17697 17684 AND\n2 1 1366 1206 1238 XOR\n2 1 1398 1238 1270 XOR\n2 1 1270 1268 15663 XOR\n2 1 1270 15755 15751 XOR\n2 1 15755 15751 15738 AND\n2 1 15845 15846 32667 XOR\n2 1 15842 32667 15822 XOR\n2 1 15843 15822 15782 XOR\n2 1 15838 15822 15788 XOR\n1 1 15788 15785 INV\n2 1 15785 15786 36681 XOR\n2 1 36681 525 1421 XOR\n2 1 557 1421 1453 XOR\n2 1 589 1453 1485 XOR\n2 1 621 1485 1517 XOR\n2 1 1516 1517 12011 XOR\n2 1 1517 12034 12036 XOR\n2 1 1513 12036 12118 XOR\n2 1 1514 12036 12115 XOR\n2 1 1518 1517 12052 XOR\n2 1 12041 12036 12117 XOR\n2 1 15811 15782 36686 XOR\n2 1 36686 520 1416 XOR\n2 1 552 1416 1448 XOR\n2 1 584 1448 1480 XOR\n2 1 616 1480 1512 XOR\n2 1 1512 1517 12128 XOR\n2 1 1514 1512 12035 XOR\n2 1 1512 1518 12130 XOR\n2 1 12130 12115 12111 AND\n2 1 12111 12035 12039 XOR\n2 1 12035 12041 12124 XOR\n2 1 12052 12124 12122 XOR\n2 1 12124 12117 12109 AND\n2 1 32667 15820 36683 XOR\n2 1 36683 523 1419 XOR\n2 1 555 1419 1451 XOR\n2 1 587 1451 1483 XOR\n2 1 619 1483 1515 XOR\n2 1 1515 1513 12037 XOR\n2 1 1515 1512 12129 XOR\n2 1 12129 12052 12125 XOR\n2 1 12034 12129 12121 XOR\n2 1 1519 12121 12120 XOR\n2 1 1517 1515 12131 XOR\n2 1 12035 12131 12116 XOR\n2 1 12037 12035 11997 XOR\n2 1 12034 11997 12119 XOR\n2 1 12037 1514 11996 XOR\n2 1 1519 11996 12126 XOR\n2 1 12121 12125 12114 AND\n2 1 12114 12037 12040 XOR\n2 1 12122 12120 12113 AND\n2 1 12126 1519 12112 AND\n2 1 12129 12118 12108 AND\n2 1 12108 12036 12038 XOR\n2 1 12040 12038 12044 XOR\n2 1 1512 12044 12050 XOR\n2 1 12131 12116 12107 AND\n2 1 12107 12113 12059 XOR\n2 1 12059 12050 12105 XOR\n2 1 12107 12108 12010 XOR\n2 1 12010 12011 12058 XOR\n2 1 12058 12039 12057 XOR\n2 1 12110 12057 12104 XOR\n2 1 12128 12119 12106 AND\n2 1 12106 12109 12060 XOR\n2 1 12106 12112 12064 XOR\n2 1 12064 12035 12051 XOR\n",
"2 1 12059 12051 12102 XOR\n2 1 12107 12060 12054 XOR\n2 1 12039 12060 12013 XOR\n2 1 12013 12038 12103 XOR\n2 1 12044 12064 12012 XOR\n2 1 1514 12012 12056 XOR\n2 1 12110 12054 12009 XOR\n2 1 1518 12009 12097 XOR\n2 1 12105 12104 12101 AND\n2 1 12101 12056 12096 XOR\n2 1 12101 12103 12100 XOR\n2 1 12102 12100 12099 AND\n2 1 12099 12056 12098 XOR\n2 1 12099 12111 12004 XOR\n2 1 12004 12040 12000 XOR\n2 1 1512 12000 12003 XOR\n2 1 12099 12050 12001 XOR\n2 1 1514 12000 11999 XOR\n2 1 12096 12097 12095 AND\n2 1 12095 12103 12094 XOR\n2 1 12101 12095 12093 XOR\n2 1 12095 12054 12008 XOR\n2 1 12095 12112 12007 XOR\n2 1 12007 12109 12002 XOR\n2 1 12002 12003 12086 XOR\n2 1 12103 12093 12092 AND\n2 1 12092 12100 12090 XOR\n2 1 12092 12110 12063 XOR\n2 1 12063 12057 12084 XOR\n2 1 1518 12063 12045 XOR\n2 1 12045 12008 12091 XOR\n2 1 12098 12090 12089 AND\n2 1 12089 12059 12049 XOR\n2 1 12049 12051 12088 XOR\n2 1 12089 12113 12006 XOR\n2 1 12045 12006 11998 XOR\n2 1 12035 11998 12005 XOR\n2 1 12002 12005 12087 XOR\n2 1 12049 12001 12085 XOR\n2 1 11998 11999 12083 XOR\n2 1 12084 12121 12082 AND\n2 1 12091 12120 12081 AND\n2 1 12094 1519 12080 AND\n2 1 12080 12082 12062 XOR\n2 1 12085 12115 12079 AND\n2 1 12088 12127 12078 AND\n2 1 12078 12079 12047 XOR\n2 1 12098 12117 12077 AND\n2 1 12077 12078 12015 XOR\n2 1 12086 12118 12076 AND\n2 1 12083 12116 12075 AND\n2 1 12075 12047 12055 XOR\n2 1 12075 12078 12030 XOR\n1 1 12030 12027 INV\n2 1 12075 12076 12026 XOR\n2 1 12076 12055 12014 XOR\n2 1 12087 12119 12074 AND\n2 1 12084 12125 12073 AND\n2 1 12091 12122 12072 AND\n2 1 12094 12126 12071 AND\n2 1 12071 12055 12020 XOR\n1 1 12020 12017 INV\n2 1 12085 12130 12070 AND\n2 1 12070 12074 12046 XOR\n2 1 12079 12070 12031 XOR\n1 1 12046 12024 INV\n2 1 12088 12123 12069 AND\n2 1 12077 12069 12033 XOR\n2 1 12098 12124 12068 AND\n2 1 12024 12068 12023 XOR\n2 1 12023 12062 12019 XOR\n2 1 12086 12129 12067 AND\n2 1 12067 12019 12022 XOR\n2 1 12083 12131 12066 AND\n2 1 12066 12067 12061 XOR\n2 1 12072 12061 12042 XOR\n2 1 12073 12042 12043 XOR\n2 1 12081 12043 12048 XOR\n2 1 12082 12048 12053 XOR\n2 1 12047 12053 36723 XOR\n2 1 12033 12061 12029 XOR\n2 1 12062 12029 12032 XOR\n2 1 12031 12032 12135 XOR\n2 1 12024 12029 12028 XOR\n2 1 12027 12028 12134 XOR\n2 1 12053 12026 12133 XOR\n2 1 12042 12019 12018 XOR\n2 1 12017 12018 36721 XOR\n2 1 12080 12048 12016 XOR\n2 1 12015 12016 36722 XOR\n2 1 12043 12014 36726 XOR\n2 1 12087 12128 12065 AND\n2 1 12076 12065 12025 XOR\n1 1 12025 12021 INV\n2 1 12021 12022 12132 XOR\n1 1 12135 36719 INV\n1 1 12134 36720 INV\n1 1 12133 36725 INV\n1 1 12132 36724 INV\n2 1 36721 1413 1285 XOR\n2 1 36722 1412 1284 XOR\n2 1 1444 1284 1316 XOR\n2 1 1476 1316 1348 XOR\n2 1 1508 1348 1380 XOR\n2 1 1445 1285 1317 XOR\n2 1 36720 1414 1286 XOR\n2 1 1446 1286 1318 XOR\n2 1 36726 1408 1564 XOR\n1 1 1564 1280 INV\n2 1 36725 1409 1281 XOR\n2 1 1441 1281 1313 XOR\n2 1 1473 1313 1345 XOR\n2 1 1505 1345 1377 XOR\n2 1 36723 1411 1283 XOR\n2 1 1443 1283 1315 XOR\n2 1 36719 1415 1287 XOR\n2 1 36724 1410 1282 XOR\n2 1 1442 1282 1314 XOR\n2 1 1440 1564 1565 XOR\n2 1 1472 1565 1566 XOR\n1 1 1566 1344 INV\n1 1 1565 1312 INV\n2 1 1504 1566 1567 XOR\n1 1 1567 1376 INV\n2 1 1447 1287 1319 XOR\n2 1 1474 1314 1346 XOR\n2 1 1506 1346 1378 XOR\n2 1 1477 1317 1349 XOR\n",
"2 1 1509 1349 1381 XOR\n2 1 1378 1376 16915 XOR\n2 1 1380 1381 16891 XOR\n2 1 1376 1381 17007 XOR\n2 1 1475 1315 1347 XOR\n2 1 1507 1347 1379 XOR\n2 1 1379 1377 16917 XOR\n2 1 1379 1376 17008 XOR\n2 1 1381 1379 17010 XOR\n2 1 16915 17010 16995 XOR\n2 1 16917 16915 16877 XOR\n2 1 16917 1378 16876 XOR\n2 1 17010 16995 16986 AND\n2 1 1478 1318 1350 XOR\n2 1 1510 1350 1382 XOR\n2 1 1382 1380 16914 XOR\n2 1 1381 16914 16916 XOR\n2 1 1377 16916 16997 XOR\n2 1 1378 16916 16994 XOR\n2 1 16914 17008 17000 XOR\n2 1 1382 1381 16931 XOR\n2 1 17008 16931 17004 XOR\n2 1 16914 16877 16998 XOR\n2 1 1376 1382 17009 XOR\n2 1 17000 17004 16993 AND\n2 1 16993 16917 16920 XOR\n2 1 17009 16994 16990 AND\n2 1 16990 16915 16919 XOR\n2 1 17008 16997 16987 AND\n2 1 16987 16916 16918 XOR\n2 1 16920 16918 16924 XOR\n2 1 1376 16924 16929 XOR\n2 1 16986 16987 16890 XOR\n2 1 16890 16891 16937 XOR\n2 1 16937 16919 16936 XOR\n2 1 17007 16998 16985 AND\n2 1 1479 1319 1351 XOR\n2 1 1511 1351 1383 XOR\n2 1 1383 17000 16999 XOR\n2 1 1383 1377 16921 XOR\n2 1 16921 16916 16996 XOR\n2 1 16915 16921 17003 XOR\n2 1 16931 17003 17001 XOR\n2 1 1378 16921 17006 XOR\n2 1 1382 17006 17002 XOR\n2 1 1383 16876 17005 XOR\n2 1 17001 16999 16992 AND\n2 1 16986 16992 16938 XOR\n2 1 16938 16929 16984 XOR\n2 1 17005 1383 16991 AND\n2 1 16985 16991 16943 XOR\n2 1 16943 16915 16930 XOR\n2 1 16938 16930 16981 XOR\n2 1 16924 16943 16892 XOR\n2 1 1378 16892 16935 XOR\n2 1 17006 17002 16989 AND\n2 1 16989 16936 16983 XOR\n2 1 17003 16996 16988 AND\n2 1 16985 16988 16939 XOR\n2 1 16986 16939 16933 XOR\n2 1 16919 16939 16893 XOR\n2 1 16893 16918 16982 XOR\n2 1 16989 16933 16889 XOR\n2 1 1382 16889 16976 XOR\n2 1 16984 16983 16980 AND\n2 1 16980 16935 16975 XOR\n2 1 16980 16982 16979 XOR\n2 1 16981 16979 16978 AND\n2 1 16978 16935 16977 XOR\n2 1 16978 16990 16884 XOR\n2 1 16884 16920 16880 XOR\n2 1 1376 16880 16883 XOR\n2 1 16978 16929 16881 XOR\n2 1 1378 16880 16879 XOR\n2 1 16975 16976 16974 AND\n2 1 16974 16982 16973 XOR\n2 1 16980 16974 16972 XOR\n2 1 16974 16933 16888 XOR\n2 1 16974 16991 16887 XOR\n2 1 16887 16988 16882 XOR\n2 1 16882 16883 16965 XOR\n2 1 16982 16972 16971 AND\n2 1 16971 16979 16969 XOR\n2 1 16971 16989 16942 XOR\n2 1 16942 16936 16963 XOR\n2 1 1382 16942 16925 XOR\n2 1 16925 16888 16970 XOR\n2 1 16977 16969 16968 AND\n2 1 16968 16938 16928 XOR\n2 1 16928 16930 16967 XOR\n2 1 16968 16992 16886 XOR\n2 1 16925 16886 16878 XOR\n2 1 16915 16878 16885 XOR\n2 1 16882 16885 16966 XOR\n2 1 16928 16881 16964 XOR\n2 1 16878 16879 16962 XOR\n2 1 16963 17000 16961 AND\n2 1 16970 16999 16960 AND\n2 1 16973 1383 16959 AND\n2 1 16959 16961 16941 XOR\n2 1 16964 16994 16958 AND\n2 1 16967 17006 16957 AND\n2 1 16977 16996 16956 AND\n2 1 16956 16957 16895 XOR\n2 1 16965 16997 16955 AND\n2 1 16962 16995 16954 AND\n2 1 16954 16957 16910 XOR\n1 1 16910 16907 INV\n2 1 16954 16955 16906 XOR\n2 1 16966 16998 16953 AND\n2 1 16963 17004 16952 AND\n2 1 16970 17001 16951 AND\n2 1 16973 17005 16950 AND\n2 1 16964 17009 16949 AND\n2 1 16949 16953 16926 XOR\n2 1 16958 16949 16911 XOR\n1 1 16926 16904 INV\n2 1 16967 17002 16948 AND\n2 1 16956 16948 16913 XOR\n2 1 16977 17003 16947 AND\n2 1 16904 16947 16903 XOR\n2 1 16903 16941 16899 XOR\n2 1 16965 17008 16946 AND\n2 1 16946 16899 16902 XOR\n2 1 16962 17010 16945 AND\n2 1 16945 16946 16940 XOR\n2 1 16951 16940 16922 XOR\n2 1 16952 16922 16923 XOR\n",
"2 1 16960 16923 16927 XOR\n2 1 16961 16927 16932 XOR\n2 1 16913 16940 16909 XOR\n2 1 16941 16909 16912 XOR\n2 1 16911 16912 17014 XOR\n2 1 16904 16909 16908 XOR\n2 1 16907 16908 17013 XOR\n2 1 16932 16906 17012 XOR\n2 1 16922 16899 16898 XOR\n2 1 16959 16927 16896 XOR\n2 1 16895 16896 36730 XOR\n2 1 16966 17007 16944 AND\n2 1 16955 16944 16905 XOR\n1 1 16905 16901 INV\n2 1 16901 16902 17011 XOR\n1 1 17014 36727 INV\n1 1 17013 36728 INV\n1 1 17012 36733 INV\n1 1 17011 36732 INV\n2 1 36733 1305 1177 XOR\n2 1 36727 1311 1183 XOR\n2 1 36732 1306 1178 XOR\n2 1 36730 1308 1180 XOR\n2 1 1337 1177 1209 XOR\n2 1 1338 1178 1210 XOR\n2 1 36728 1310 1182 XOR\n2 1 1342 1182 1214 XOR\n2 1 1374 1214 1246 XOR\n2 1 1406 1246 1278 XOR\n2 1 1343 1183 1215 XOR\n2 1 1375 1215 1247 XOR\n2 1 1407 1247 1279 XOR\n2 1 1340 1180 1212 XOR\n2 1 1372 1212 1244 XOR\n2 1 1404 1244 1276 XOR\n2 1 1278 1276 12594 XOR\n2 1 1370 1210 1242 XOR\n2 1 1402 1242 1274 XOR\n2 1 1369 1209 1241 XOR\n2 1 1401 1241 1273 XOR\n2 1 1279 1273 12601 XOR\n2 1 1274 12601 12687 XOR\n2 1 1278 12687 12683 XOR\n2 1 12687 12683 12670 AND\n2 1 16957 16958 32675 XOR\n2 1 16954 32675 16934 XOR\n2 1 16955 16934 16894 XOR\n2 1 16923 16894 36734 XOR\n2 1 36734 1304 1176 XOR\n2 1 1336 1176 1208 XOR\n2 1 1368 1208 1240 XOR\n2 1 1400 1240 1272 XOR\n2 1 1272 1278 12690 XOR\n2 1 1274 1272 12595 XOR\n2 1 12595 12601 12684 XOR\n2 1 16950 16934 16900 XOR\n1 1 16900 16897 INV\n2 1 16897 16898 36729 XOR\n2 1 36729 1309 1181 XOR\n2 1 1341 1181 1213 XOR\n2 1 1373 1213 1245 XOR\n2 1 1405 1245 1277 XOR\n2 1 1277 12594 12596 XOR\n2 1 1278 1277 12612 XOR\n2 1 1276 1277 12571 XOR\n2 1 1272 1277 12688 XOR\n2 1 1274 12596 12675 XOR\n2 1 12690 12675 12671 AND\n2 1 12671 12595 12599 XOR\n2 1 1273 12596 12678 XOR\n2 1 12601 12596 12677 XOR\n2 1 12612 12684 12682 XOR\n2 1 12684 12677 12669 AND\n2 1 32675 16932 36731 XOR\n2 1 36731 1307 1179 XOR\n2 1 1339 1179 1211 XOR\n2 1 1371 1211 1243 XOR\n2 1 1403 1243 1275 XOR\n2 1 1275 1273 12597 XOR\n2 1 1275 1272 12689 XOR\n2 1 12689 12612 12685 XOR\n2 1 12594 12689 12681 XOR\n2 1 1279 12681 12680 XOR\n2 1 1277 1275 12691 XOR\n2 1 12595 12691 12676 XOR\n2 1 12597 12595 12557 XOR\n2 1 12594 12557 12679 XOR\n2 1 12597 1274 12556 XOR\n2 1 1279 12556 12686 XOR\n2 1 12681 12685 12674 AND\n2 1 12674 12597 12600 XOR\n2 1 12682 12680 12673 AND\n2 1 12686 1279 12672 AND\n2 1 12689 12678 12668 AND\n2 1 12668 12596 12598 XOR\n2 1 12600 12598 12604 XOR\n2 1 1272 12604 12610 XOR\n2 1 12691 12676 12667 AND\n2 1 12667 12673 12619 XOR\n2 1 12619 12610 12665 XOR\n2 1 12667 12668 12570 XOR\n2 1 12570 12571 12618 XOR\n2 1 12618 12599 12617 XOR\n2 1 12670 12617 12664 XOR\n2 1 12688 12679 12666 AND\n2 1 12666 12669 12620 XOR\n2 1 12666 12672 12624 XOR\n2 1 12624 12595 12611 XOR\n2 1 12619 12611 12662 XOR\n2 1 12667 12620 12614 XOR\n2 1 12599 12620 12573 XOR\n2 1 12573 12598 12663 XOR\n2 1 12604 12624 12572 XOR\n2 1 1274 12572 12616 XOR\n2 1 12670 12614 12569 XOR\n2 1 1278 12569 12657 XOR\n2 1 12665 12664 12661 AND\n2 1 12661 12616 12656 XOR\n2 1 12661 12663 12660 XOR\n2 1 12662 12660 12659 AND\n2 1 12659 12616 12658 XOR\n2 1 12659 12671 12564 XOR\n2 1 12564 12600 12560 XOR\n2 1 1272 12560 12563 XOR\n2 1 12659 12610 12561 XOR\n2 1 1274 12560 12559 XOR\n2 1 12656 12657 12655 AND\n2 1 12655 12663 12654 XOR\n",
"2 1 12661 12655 12653 XOR\n2 1 12655 12614 12568 XOR\n2 1 12655 12672 12567 XOR\n2 1 12567 12669 12562 XOR\n2 1 12562 12563 12646 XOR\n2 1 12663 12653 12652 AND\n2 1 12652 12660 12650 XOR\n2 1 12652 12670 12623 XOR\n2 1 12623 12617 12644 XOR\n2 1 1278 12623 12605 XOR\n2 1 12605 12568 12651 XOR\n2 1 12658 12650 12649 AND\n2 1 12649 12619 12609 XOR\n2 1 12609 12611 12648 XOR\n2 1 12649 12673 12566 XOR\n2 1 12605 12566 12558 XOR\n2 1 12595 12558 12565 XOR\n2 1 12562 12565 12647 XOR\n2 1 12609 12561 12645 XOR\n2 1 12558 12559 12643 XOR\n2 1 12644 12681 12642 AND\n2 1 12651 12680 12641 AND\n2 1 12654 1279 12640 AND\n2 1 12640 12642 12622 XOR\n2 1 12645 12675 12639 AND\n2 1 12648 12687 12638 AND\n2 1 12638 12639 12607 XOR\n2 1 12658 12677 12637 AND\n2 1 12637 12638 12575 XOR\n2 1 12646 12678 12636 AND\n2 1 12643 12676 12635 AND\n2 1 12635 12607 12615 XOR\n2 1 12635 12638 12590 XOR\n1 1 12590 12587 INV\n2 1 12635 12636 12586 XOR\n2 1 12636 12615 12574 XOR\n2 1 12647 12679 12634 AND\n2 1 12644 12685 12633 AND\n2 1 12651 12682 12632 AND\n2 1 12654 12686 12631 AND\n2 1 12631 12615 12580 XOR\n1 1 12580 12577 INV\n2 1 12645 12690 12630 AND\n2 1 12630 12634 12606 XOR\n2 1 12639 12630 12591 XOR\n1 1 12606 12584 INV\n2 1 12648 12683 12629 AND\n2 1 12637 12629 12593 XOR\n2 1 12658 12684 12628 AND\n2 1 12584 12628 12583 XOR\n2 1 12583 12622 12579 XOR\n2 1 12646 12689 12627 AND\n2 1 12627 12579 12582 XOR\n2 1 12643 12691 12626 AND\n2 1 12626 12627 12621 XOR\n2 1 12632 12621 12602 XOR\n2 1 12633 12602 12603 XOR\n2 1 12641 12603 12608 XOR\n2 1 12642 12608 12613 XOR\n2 1 12607 12613 36771 XOR\n2 1 12593 12621 12589 XOR\n2 1 12622 12589 12592 XOR\n2 1 12591 12592 12695 XOR\n2 1 12584 12589 12588 XOR\n2 1 12587 12588 12694 XOR\n2 1 12613 12586 12693 XOR\n2 1 12602 12579 12578 XOR\n2 1 12577 12578 36769 XOR\n2 1 12640 12608 12576 XOR\n2 1 12575 12576 36770 XOR\n2 1 12603 12574 36774 XOR\n2 1 12647 12688 12625 AND\n2 1 12636 12625 12585 XOR\n1 1 12585 12581 INV\n2 1 12581 12582 12692 XOR\n1 1 12695 36767 INV\n1 1 12694 36768 INV\n1 1 12693 36773 INV\n1 1 12692 36772 INV\n2 1 36767 1175 1047 XOR\n2 1 36768 1174 1046 XOR\n2 1 1206 1046 1078 XOR\n2 1 1238 1078 1110 XOR\n2 1 1270 1110 1142 XOR\n2 1 1207 1047 1079 XOR\n2 1 1239 1079 1111 XOR\n2 1 1271 1111 1143 XOR\n2 1 36773 1169 1041 XOR\n2 1 1201 1041 1073 XOR\n2 1 36772 1170 1042 XOR\n2 1 1202 1042 1074 XOR\n2 1 36770 1172 1044 XOR\n2 1 1204 1044 1076 XOR\n2 1 1233 1073 1105 XOR\n2 1 1265 1105 1137 XOR\n2 1 1234 1074 1106 XOR\n2 1 1266 1106 1138 XOR\n2 1 1236 1076 1108 XOR\n2 1 1268 1108 1140 XOR\n2 1 18764 18765 32688 XOR\n2 1 32688 18739 36675 XOR\n2 1 36675 531 1427 XOR\n2 1 563 1427 1459 XOR\n2 1 595 1459 1491 XOR\n2 1 627 1491 1523 XOR\n2 1 1523 1521 22477 XOR\n2 1 22477 1522 22436 XOR\n2 1 1527 22436 22565 XOR\n2 1 22565 1527 22551 AND\n2 1 18761 32688 18741 XOR\n2 1 18757 18741 18707 XOR\n1 1 18707 18704 INV\n2 1 18704 18705 36673 XOR\n2 1 36673 533 1429 XOR\n2 1 565 1429 1461 XOR\n2 1 597 1461 1493 XOR\n2 1 629 1493 1525 XOR\n2 1 18762 18741 18701 XOR\n2 1 18730 18701 36678 XOR\n2 1 36678 528 1424 XOR\n2 1 560 1424 1456 XOR\n2 1 592 1456 1488 XOR\n2 1 624 1488 1520 XOR\n2 1 1522 1520 22475 XOR\n2 1 1525 22474 22476 XOR\n2 1 1521 22476 22557 XOR\n2 1 1522 22476 22554 XOR\n2 1 22481 22476 22556 XOR\n",
"2 1 1523 1520 22568 XOR\n2 1 22475 22481 22563 XOR\n2 1 22474 22568 22560 XOR\n2 1 1527 22560 22559 XOR\n2 1 1526 1525 22491 XOR\n2 1 22491 22563 22561 XOR\n2 1 22568 22491 22564 XOR\n2 1 1525 1523 22570 XOR\n2 1 22475 22570 22555 XOR\n2 1 1524 1525 22451 XOR\n2 1 22477 22475 22437 XOR\n2 1 22474 22437 22558 XOR\n2 1 1520 1526 22569 XOR\n2 1 1520 1525 22567 XOR\n2 1 22560 22564 22553 AND\n2 1 22553 22477 22480 XOR\n2 1 22561 22559 22552 AND\n2 1 22569 22554 22550 AND\n2 1 22550 22475 22479 XOR\n2 1 22563 22556 22548 AND\n2 1 22568 22557 22547 AND\n2 1 22547 22476 22478 XOR\n2 1 22480 22478 22484 XOR\n2 1 1520 22484 22489 XOR\n2 1 22570 22555 22546 AND\n2 1 22546 22552 22498 XOR\n2 1 22498 22489 22544 XOR\n2 1 22546 22547 22450 XOR\n2 1 22450 22451 22497 XOR\n2 1 22497 22479 22496 XOR\n2 1 22549 22496 22543 XOR\n2 1 22567 22558 22545 AND\n2 1 22545 22548 22499 XOR\n2 1 22545 22551 22503 XOR\n2 1 22503 22475 22490 XOR\n2 1 22498 22490 22541 XOR\n2 1 22546 22499 22493 XOR\n2 1 22479 22499 22453 XOR\n2 1 22453 22478 22542 XOR\n2 1 22484 22503 22452 XOR\n2 1 1522 22452 22495 XOR\n2 1 22549 22493 22449 XOR\n2 1 1526 22449 22536 XOR\n2 1 22544 22543 22540 AND\n2 1 22540 22495 22535 XOR\n2 1 22540 22542 22539 XOR\n2 1 22541 22539 22538 AND\n2 1 22538 22495 22537 XOR\n2 1 22538 22550 22444 XOR\n2 1 22444 22480 22440 XOR\n2 1 1520 22440 22443 XOR\n2 1 22538 22489 22441 XOR\n2 1 1522 22440 22439 XOR\n2 1 22535 22536 22534 AND\n2 1 22534 22542 22533 XOR\n2 1 22540 22534 22532 XOR\n2 1 22534 22493 22448 XOR\n2 1 22534 22551 22447 XOR\n2 1 22447 22548 22442 XOR\n2 1 22442 22443 22525 XOR\n2 1 22542 22532 22531 AND\n2 1 22531 22539 22529 XOR\n2 1 22531 22549 22502 XOR\n2 1 22502 22496 22523 XOR\n2 1 1526 22502 22485 XOR\n2 1 22485 22448 22530 XOR\n2 1 22537 22529 22528 AND\n2 1 22528 22498 22488 XOR\n2 1 22488 22490 22527 XOR\n2 1 22528 22552 22446 XOR\n2 1 22485 22446 22438 XOR\n2 1 22475 22438 22445 XOR\n2 1 22442 22445 22526 XOR\n2 1 22488 22441 22524 XOR\n2 1 22438 22439 22522 XOR\n2 1 22523 22560 22521 AND\n2 1 22530 22559 22520 AND\n2 1 22533 1527 22519 AND\n2 1 22519 22521 22501 XOR\n2 1 22524 22554 22518 AND\n2 1 22527 22566 22517 AND\n2 1 22537 22556 22516 AND\n2 1 22516 22517 22455 XOR\n2 1 22525 22557 22515 AND\n2 1 22522 22555 22514 AND\n2 1 22514 22517 22470 XOR\n1 1 22470 22467 INV\n2 1 22514 22515 22466 XOR\n2 1 22526 22558 22513 AND\n2 1 22523 22564 22512 AND\n2 1 22530 22561 22511 AND\n2 1 22533 22565 22510 AND\n2 1 22524 22569 22509 AND\n2 1 22509 22513 22486 XOR\n2 1 22518 22509 22471 XOR\n1 1 22486 22464 INV\n2 1 22527 22562 22508 AND\n2 1 22516 22508 22473 XOR\n2 1 22537 22563 22507 AND\n2 1 22464 22507 22463 XOR\n2 1 22463 22501 22459 XOR\n2 1 22525 22568 22506 AND\n2 1 22506 22459 22462 XOR\n2 1 22522 22570 22505 AND\n2 1 22505 22506 22500 XOR\n2 1 22511 22500 22482 XOR\n2 1 22512 22482 22483 XOR\n2 1 22520 22483 22487 XOR\n2 1 22521 22487 22492 XOR\n2 1 22473 22500 22469 XOR\n2 1 22501 22469 22472 XOR\n2 1 22471 22472 22574 XOR\n2 1 22464 22469 22468 XOR\n2 1 22467 22468 22573 XOR\n2 1 22492 22466 22572 XOR\n2 1 22482 22459 22458 XOR\n2 1 22519 22487 22456 XOR\n2 1 22455 22456 36714 XOR\n2 1 36714 1420 1292 XOR\n2 1 22526 22567 22504 AND\n2 1 22515 22504 22465 XOR\n1 1 22465 22461 INV\n2 1 22461 22462 22571 XOR\n1 1 22574 36711 INV\n2 1 36711 1423 1295 XOR\n2 1 1455 1295 1327 XOR\n1 1 22573 36712 INV\n2 1 36712 1422 1294 XOR\n",
"2 1 1454 1294 1326 XOR\n1 1 22572 36717 INV\n2 1 36717 1417 1289 XOR\n2 1 1449 1289 1321 XOR\n2 1 1481 1321 1353 XOR\n2 1 1513 1353 1385 XOR\n1 1 22571 36716 INV\n2 1 36716 1418 1290 XOR\n2 1 1450 1290 1322 XOR\n2 1 1482 1322 1354 XOR\n2 1 1514 1354 1386 XOR\n2 1 1452 1292 1324 XOR\n2 1 1484 1324 1356 XOR\n2 1 1516 1356 1388 XOR\n2 1 1486 1326 1358 XOR\n2 1 1518 1358 1390 XOR\n2 1 1390 1388 18582 XOR\n2 1 1487 1327 1359 XOR\n2 1 1519 1359 1391 XOR\n2 1 1391 1385 18589 XOR\n2 1 1386 18589 18674 XOR\n2 1 1390 18674 18670 XOR\n2 1 18674 18670 18657 AND\n2 1 21266 21267 32706 XOR\n2 1 32706 21241 36707 XOR\n2 1 36707 1427 1299 XOR\n2 1 1459 1299 1331 XOR\n2 1 36739 1299 1171 XOR\n2 1 36771 1171 1043 XOR\n2 1 1331 1171 1203 XOR\n2 1 1203 1043 1075 XOR\n2 1 1491 1331 1363 XOR\n2 1 1523 1363 1395 XOR\n2 1 1395 1393 17612 XOR\n2 1 17612 1394 17571 XOR\n2 1 1363 1203 1235 XOR\n2 1 1235 1075 1107 XOR\n2 1 1395 1235 1267 XOR\n2 1 1267 1265 15666 XOR\n2 1 15666 1266 15625 XOR\n2 1 1271 15625 15754 XOR\n2 1 15754 1271 15740 AND\n2 1 1267 1107 1139 XOR\n2 1 1399 17571 17700 XOR\n2 1 17700 1399 17686 AND\n2 1 21263 32706 21243 XOR\n2 1 21259 21243 21209 XOR\n1 1 21209 21206 INV\n2 1 21206 21207 36705 XOR\n2 1 36705 1429 1301 XOR\n2 1 1461 1301 1333 XOR\n2 1 1493 1333 1365 XOR\n2 1 1525 1365 1397 XOR\n2 1 1397 17609 17611 XOR\n2 1 1393 17611 17692 XOR\n2 1 1394 17611 17689 XOR\n2 1 17616 17611 17691 XOR\n2 1 1398 1397 17626 XOR\n2 1 1397 1395 17705 XOR\n2 1 1396 1397 17586 XOR\n2 1 36737 1301 1173 XOR\n2 1 1333 1173 1205 XOR\n2 1 1365 1205 1237 XOR\n2 1 1397 1237 1269 XOR\n2 1 1269 15663 15665 XOR\n2 1 1265 15665 15746 XOR\n2 1 1266 15665 15743 XOR\n2 1 15670 15665 15745 XOR\n2 1 1270 1269 15680 XOR\n2 1 1269 1267 15759 XOR\n2 1 1268 1269 15640 XOR\n2 1 21264 21243 21203 XOR\n2 1 21232 21203 36710 XOR\n2 1 36710 1424 1296 XOR\n2 1 1456 1296 1328 XOR\n2 1 1488 1328 1360 XOR\n2 1 1520 1360 1392 XOR\n2 1 1394 1392 17610 XOR\n2 1 17610 17705 17690 XOR\n2 1 1395 1392 17703 XOR\n2 1 17703 17626 17699 XOR\n2 1 17610 17616 17698 XOR\n2 1 17626 17698 17696 XOR\n2 1 17609 17703 17695 XOR\n2 1 1399 17695 17694 XOR\n2 1 17612 17610 17572 XOR\n2 1 17609 17572 17693 XOR\n2 1 1392 1398 17704 XOR\n2 1 1392 1397 17702 XOR\n2 1 17695 17699 17688 AND\n2 1 17688 17612 17615 XOR\n2 1 17696 17694 17687 AND\n2 1 17704 17689 17685 AND\n2 1 17685 17610 17614 XOR\n2 1 17698 17691 17683 AND\n2 1 17703 17692 17682 AND\n2 1 17682 17611 17613 XOR\n2 1 17615 17613 17619 XOR\n2 1 1392 17619 17624 XOR\n2 1 17705 17690 17681 AND\n2 1 17681 17687 17633 XOR\n2 1 17633 17624 17679 XOR\n2 1 17681 17682 17585 XOR\n2 1 17585 17586 17632 XOR\n2 1 17632 17614 17631 XOR\n2 1 17684 17631 17678 XOR\n2 1 17702 17693 17680 AND\n2 1 17680 17683 17634 XOR\n2 1 17680 17686 17638 XOR\n2 1 17638 17610 17625 XOR\n2 1 17633 17625 17676 XOR\n2 1 17681 17634 17628 XOR\n2 1 17614 17634 17588 XOR\n2 1 17588 17613 17677 XOR\n2 1 17619 17638 17587 XOR\n2 1 1394 17587 17630 XOR\n2 1 17684 17628 17584 XOR\n2 1 1398 17584 17671 XOR\n2 1 17679 17678 17675 AND\n2 1 17675 17630 17670 XOR\n2 1 17675 17677 17674 XOR\n2 1 17676 17674 17673 AND\n2 1 17673 17630 17672 XOR\n2 1 17673 17685 17579 XOR\n2 1 17579 17615 17575 XOR\n2 1 1392 17575 17578 XOR\n2 1 17673 17624 17576 XOR\n2 1 1394 17575 17574 XOR\n",
"2 1 17670 17671 17669 AND\n2 1 17669 17677 17668 XOR\n2 1 17675 17669 17667 XOR\n2 1 17669 17628 17583 XOR\n2 1 17669 17686 17582 XOR\n2 1 17582 17683 17577 XOR\n2 1 17577 17578 17660 XOR\n2 1 17677 17667 17666 AND\n2 1 17666 17674 17664 XOR\n2 1 17666 17684 17637 XOR\n2 1 17637 17631 17658 XOR\n2 1 1398 17637 17620 XOR\n2 1 17620 17583 17665 XOR\n2 1 17672 17664 17663 AND\n2 1 17663 17633 17623 XOR\n2 1 17623 17625 17662 XOR\n2 1 17663 17687 17581 XOR\n2 1 17620 17581 17573 XOR\n2 1 17610 17573 17580 XOR\n2 1 17577 17580 17661 XOR\n2 1 17623 17576 17659 XOR\n2 1 17573 17574 17657 XOR\n2 1 17658 17695 17656 AND\n2 1 17665 17694 17655 AND\n2 1 17668 1399 17654 AND\n2 1 17654 17656 17636 XOR\n2 1 17659 17689 17653 AND\n2 1 17662 17701 17652 AND\n2 1 17672 17691 17651 AND\n2 1 17651 17652 17590 XOR\n2 1 17660 17692 17650 AND\n2 1 17657 17690 17649 AND\n2 1 17649 17652 17605 XOR\n1 1 17605 17602 INV\n2 1 17649 17650 17601 XOR\n2 1 17661 17693 17648 AND\n2 1 17658 17699 17647 AND\n2 1 17665 17696 17646 AND\n2 1 17668 17700 17645 AND\n2 1 17659 17704 17644 AND\n2 1 17644 17648 17621 XOR\n2 1 17653 17644 17606 XOR\n1 1 17621 17599 INV\n2 1 17662 17697 17643 AND\n2 1 17651 17643 17608 XOR\n2 1 17672 17698 17642 AND\n2 1 17599 17642 17598 XOR\n2 1 17598 17636 17594 XOR\n2 1 17660 17703 17641 AND\n2 1 17641 17594 17597 XOR\n2 1 17657 17705 17640 AND\n2 1 17640 17641 17635 XOR\n2 1 17646 17635 17617 XOR\n2 1 17647 17617 17618 XOR\n2 1 17655 17618 17622 XOR\n2 1 17656 17622 17627 XOR\n2 1 17608 17635 17604 XOR\n2 1 17636 17604 17607 XOR\n2 1 17606 17607 17709 XOR\n2 1 17599 17604 17603 XOR\n2 1 17602 17603 17708 XOR\n2 1 17627 17601 17707 XOR\n2 1 17617 17594 17593 XOR\n2 1 17654 17622 17591 XOR\n2 1 17590 17591 36746 XOR\n2 1 17661 17702 17639 AND\n2 1 17650 17639 17600 XOR\n1 1 17600 17596 INV\n2 1 17596 17597 17706 XOR\n1 1 17709 36743 INV\n1 1 17708 36744 INV\n1 1 17707 36749 INV\n1 1 17706 36748 INV\n2 1 36749 1289 1161 XOR\n2 1 36742 1296 1168 XOR\n2 1 1328 1168 1200 XOR\n2 1 36743 1295 1167 XOR\n2 1 1360 1200 1232 XOR\n2 1 1392 1232 1264 XOR\n2 1 1266 1264 15664 XOR\n2 1 15664 15759 15744 XOR\n2 1 1267 1264 15757 XOR\n2 1 15757 15680 15753 XOR\n2 1 15664 15670 15752 XOR\n2 1 15680 15752 15750 XOR\n2 1 15663 15757 15749 XOR\n2 1 1271 15749 15748 XOR\n2 1 15666 15664 15626 XOR\n2 1 15663 15626 15747 XOR\n2 1 1264 1270 15758 XOR\n2 1 1264 1269 15756 XOR\n2 1 15749 15753 15742 AND\n2 1 15742 15666 15669 XOR\n2 1 15750 15748 15741 AND\n2 1 15758 15743 15739 AND\n2 1 15739 15664 15668 XOR\n2 1 15752 15745 15737 AND\n2 1 15757 15746 15736 AND\n2 1 15736 15665 15667 XOR\n2 1 15669 15667 15673 XOR\n2 1 1264 15673 15678 XOR\n2 1 15759 15744 15735 AND\n2 1 15735 15741 15687 XOR\n2 1 15687 15678 15733 XOR\n2 1 15735 15736 15639 XOR\n2 1 15639 15640 15686 XOR\n2 1 15686 15668 15685 XOR\n2 1 15738 15685 15732 XOR\n2 1 15756 15747 15734 AND\n2 1 15734 15737 15688 XOR\n2 1 15734 15740 15692 XOR\n2 1 15692 15664 15679 XOR\n2 1 15687 15679 15730 XOR\n2 1 15735 15688 15682 XOR\n2 1 15668 15688 15642 XOR\n2 1 15642 15667 15731 XOR\n2 1 15673 15692 15641 XOR\n2 1 1266 15641 15684 XOR\n2 1 15738 15682 15638 XOR\n2 1 1270 15638 15725 XOR\n2 1 15733 15732 15729 AND\n2 1 15729 15684 15724 XOR\n2 1 15729 15731 15728 XOR\n2 1 15730 15728 15727 AND\n2 1 15727 15684 15726 XOR\n2 1 15727 15739 15633 XOR\n2 1 15633 15669 15629 XOR\n2 1 1264 15629 15632 XOR\n",
"2 1 15727 15678 15630 XOR\n2 1 1266 15629 15628 XOR\n2 1 15724 15725 15723 AND\n2 1 15723 15731 15722 XOR\n2 1 15729 15723 15721 XOR\n2 1 15723 15682 15637 XOR\n2 1 15723 15740 15636 XOR\n2 1 15636 15737 15631 XOR\n2 1 15631 15632 15714 XOR\n2 1 15731 15721 15720 AND\n2 1 15720 15728 15718 XOR\n2 1 15720 15738 15691 XOR\n2 1 15691 15685 15712 XOR\n2 1 1270 15691 15674 XOR\n2 1 15674 15637 15719 XOR\n2 1 15726 15718 15717 AND\n2 1 15717 15687 15677 XOR\n2 1 15677 15679 15716 XOR\n2 1 15717 15741 15635 XOR\n2 1 15674 15635 15627 XOR\n2 1 15664 15627 15634 XOR\n2 1 15631 15634 15715 XOR\n2 1 15677 15630 15713 XOR\n2 1 15627 15628 15711 XOR\n2 1 15712 15749 15710 AND\n2 1 15719 15748 15709 AND\n2 1 15722 1271 15708 AND\n2 1 15708 15710 15690 XOR\n2 1 15713 15743 15707 AND\n2 1 15716 15755 15706 AND\n2 1 15726 15745 15705 AND\n2 1 15705 15706 15644 XOR\n2 1 15714 15746 15704 AND\n2 1 15711 15744 15703 AND\n2 1 15703 15706 15659 XOR\n1 1 15659 15656 INV\n2 1 15703 15704 15655 XOR\n2 1 15715 15747 15702 AND\n2 1 15712 15753 15701 AND\n2 1 15719 15750 15700 AND\n2 1 15722 15754 15699 AND\n2 1 15713 15758 15698 AND\n2 1 15698 15702 15675 XOR\n2 1 15707 15698 15660 XOR\n1 1 15675 15653 INV\n2 1 15716 15751 15697 AND\n2 1 15705 15697 15662 XOR\n2 1 15726 15752 15696 AND\n2 1 15653 15696 15652 XOR\n2 1 15652 15690 15648 XOR\n2 1 15714 15757 15695 AND\n2 1 15695 15648 15651 XOR\n2 1 15711 15759 15694 AND\n2 1 15694 15695 15689 XOR\n2 1 15700 15689 15671 XOR\n2 1 15701 15671 15672 XOR\n2 1 15709 15672 15676 XOR\n2 1 15710 15676 15681 XOR\n2 1 15662 15689 15658 XOR\n2 1 15690 15658 15661 XOR\n2 1 15660 15661 15763 XOR\n2 1 15653 15658 15657 XOR\n2 1 15656 15657 15762 XOR\n2 1 15681 15655 15761 XOR\n2 1 15671 15648 15647 XOR\n2 1 15708 15676 15645 XOR\n2 1 15644 15645 36778 XOR\n2 1 15715 15756 15693 AND\n2 1 15704 15693 15654 XOR\n1 1 15654 15650 INV\n2 1 15650 15651 15760 XOR\n1 1 15763 36775 INV\n1 1 15762 36776 INV\n1 1 15761 36781 INV\n1 1 15760 36780 INV\n2 1 36744 1294 1166 XOR\n2 1 1321 1161 1193 XOR\n2 1 1353 1193 1225 XOR\n2 1 1327 1167 1199 XOR\n2 1 1359 1199 1231 XOR\n2 1 1391 1231 1263 XOR\n2 1 1385 1225 1257 XOR\n2 1 1263 1257 12181 XOR\n2 1 36748 1290 1162 XOR\n2 1 1322 1162 1194 XOR\n2 1 1354 1194 1226 XOR\n2 1 1386 1226 1258 XOR\n2 1 1258 12181 12267 XOR\n2 1 36746 1292 1164 XOR\n2 1 1324 1164 1196 XOR\n2 1 1326 1166 1198 XOR\n2 1 1358 1198 1230 XOR\n2 1 1390 1230 1262 XOR\n2 1 1262 12267 12263 XOR\n2 1 12267 12263 12250 AND\n2 1 1356 1196 1228 XOR\n2 1 1388 1228 1260 XOR\n2 1 1262 1260 12174 XOR\n2 1 36774 1168 1040 XOR\n2 1 36780 1162 1034 XOR\n2 1 36775 1167 1039 XOR\n2 1 36778 1164 1036 XOR\n2 1 1196 1036 1068 XOR\n2 1 1228 1068 1100 XOR\n2 1 1260 1100 1132 XOR\n2 1 36776 1166 1038 XOR\n2 1 1199 1039 1071 XOR\n2 1 1200 1040 1072 XOR\n2 1 1198 1038 1070 XOR\n2 1 1230 1070 1102 XOR\n2 1 1262 1102 1134 XOR\n2 1 36781 1161 1033 XOR\n2 1 1193 1033 1065 XOR\n2 1 1225 1065 1097 XOR\n2 1 1257 1097 1129 XOR\n2 1 36769 1173 1045 XOR\n2 1 1205 1045 1077 XOR\n2 1 1237 1077 1109 XOR\n2 1 1269 1109 1141 XOR\n2 1 1194 1034 1066 XOR\n2 1 1226 1066 1098 XOR\n2 1 1258 1098 1130 XOR\n2 1 1231 1071 1103 XOR\n2 1 1263 1103 1135 XOR\n2 1 1232 1072 1104 XOR\n2 1 1264 1104 1136 XOR\n2 1 15706 15707 32666 XOR\n2 1 32666 15681 36779 XOR\n"]

end Verif.Data
