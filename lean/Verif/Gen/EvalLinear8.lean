import Verif.Model.EvalLinear

/-!
# The body of `eval_linear`, part 8

Generated by tools/gen_eval_linear.py from _mooreriderlean2012.py:9786-11187.  Do not edit.
-/

namespace BP.EL

open E

/-- _mooreriderlean2012.py:9786-9940 -/
def part84 : List (ℕ × E) := [
(4586, z 4584 ⊛ u1 ⊹ z 4585 ⊛ u2 ⊹ z 29 ⊛ z 4578 ⊛ u3 ⊹ z 29 ⊛ z 4579 ⊛ u4 ⊹ z 29 ⊛ z 4580 ⊛ u5 ⊹
    z 29 ⊛ z 4581 ⊛ u7 ⊹ z 542 ⊛ z 622 ⊝ z 539 ⊛ z 621 ⊝ z 545 ⊛ z 626 ⊝ z 550 ⊛ z 623),
(4587, (z 525 ⊛ z 4567 ⊹ z 478 ⊛ z 496 ⊛ z 4582 ⊝ z 511 ⊛ z 4583 ⊝ z 478 ⊛ z 528 ⊛ z 4586) ⊘ z
    494),
(4588, (z 512 ⊛ z 4583 ⊹ z 527 ⊛ z 4582 ⊝ z 526 ⊛ z 4567 ⊝ z 532 ⊛ z 4586) ⊘ z 494),
(4589, (z 519 ⊛ z 4567 ⊹ z 487 ⊛ z 496 ⊛ z 4582 ⊝ z 504 ⊛ z 4583 ⊝ z 487 ⊛ z 528 ⊛ z 4586) ⊘ z
    494),
(4590, (z 523 ⊛ z 4567 ⊹ z 482 ⊛ z 496 ⊛ z 4582 ⊝ z 509 ⊛ z 4583 ⊝ z 482 ⊛ z 528 ⊛ z 4586) ⊘ z
    494),
(4591, z 4564 ⊹ z 940 ⊛ z 4587 ⊹ z 946 ⊛ z 4589 ⊝ z 944 ⊛ z 4588 ⊝ z 947 ⊛ z 4590),
(4592, z 75 ⊛ z 4490 ⊹ z 79 ⊛ z 4498 ⊹ z 93 ⊛ z 4505 ⊹ z 96 ⊛ z 4511 ⊹ if11 ⊛ z 93 ⊛ z 4503 ⊹ if11
    ⊛ z 96 ⊛ z 4510 ⊹ me ⊛ z 161 ⊛ (z 4550 ⊹ z 9 ⊛ z 4548 ⊝ z 10 ⊛ z 4546) ⊹ mf ⊛ z 150 ⊛ (z 4556
    ⊹ z 9 ⊛ z 4548 ⊝ z 10 ⊛ z 4546) ⊝ z 75 ⊛ z 4487 ⊝ z 75 ⊛ z 4488 ⊝ z 79 ⊛ z 4496 ⊝ z 79 ⊛ z
    4497),
(4593, z 4592 ⊹ z 543 ⊛ z 4563 ⊹ z 548 ⊛ z 4562 ⊝ z 540 ⊛ z 4560 ⊝ z 546 ⊛ z 4561 ⊝ z 83 ⊛ z 551 ⊛
    (z 4494 ⊹ z 4495)),
(4594, z 4593 ⊹ z 970 ⊛ z 4587 ⊹ z 971 ⊛ z 4589 ⊝ z 972 ⊛ z 4590 ⊝ z 975 ⊛ z 4588),
(4595, z 53 ⊛ (z 4478 ⊹ id22 ⊛ z 545 ⊛ z 276)),
(4596, z 542 ⊛ z 4563 ⊹ z 83 ⊛ z 550 ⊛ (z 4494 ⊹ z 4495) ⊝ z 4595 ⊝ z 539 ⊛ z 4560 ⊝ z 545 ⊛ z
    4561),
(4597, z 4596 ⊹ z 955 ⊛ z 4587 ⊹ z 957 ⊛ z 4589 ⊝ z 958 ⊛ z 4590 ⊝ z 961 ⊛ z 4588),
(4598, z 98 ⊛ z 4515 ⊹ z 99 ⊛ z 4518 ⊝ z 98 ⊛ z 4512 ⊝ z 98 ⊛ z 4513 ⊝ z 99 ⊛ z 4516 ⊝ mg ⊛ (z 200
    ⊛ z 4535 ⊹ z 201 ⊛ z 4538 ⊝ z 205 ⊛ z 4530)),
(4599, z 4598 ⊹ z 902 ⊛ z 4587 ⊹ z 906 ⊛ z 4589 ⊝ z 907 ⊛ z 4590),
(4600, (z 1005 ⊛ z 4591 ⊹ z 1022 ⊛ z 4594 ⊝ z 1015 ⊛ z 4597 ⊝ z 1026 ⊛ z 4599) ⊘ z 1001),
(4601, z 6 ⊛ z 548 ⊛ (pow (z 3) 2 ⊹ pow (z 4) 2)),
(4602, z 43 ⊛ z 546 ⊛ z 271 ⊝ z 4601 ⊛ q4p ⊝ z 3 ⊛ z 5 ⊛ z 43 ⊛ z 548 ⊛ q3p),
(4603, z 5 ⊛ z 548 ⊛ (pow (z 3) 2 ⊹ pow (z 4) 2)),
(4604, z 4603 ⊛ q4p ⊹ z 548 ⊛ z 278 ⊝ z 3 ⊛ z 6 ⊛ z 43 ⊛ z 548 ⊛ q3p ⊝ z 43 ⊛ z 546 ⊛ z 268),
(4605, ic33 ⊛ z 678 ⊹ ic31 ⊛ z 50 ⊛ z 546),
(4606, z 677 ⊛ z 758 ⊹ z 4605 ⊛ z 266 ⊝ z 678 ⊛ z 759 ⊝ ic22 ⊛ z 677 ⊛ z 267),
(4607, z 548 ⊛ (z 3 ⊛ z 5 ⊛ z 31 ⊹ z 3 ⊛ z 6 ⊛ z 41 ⊝ z 4 ⊛ z 5 ⊛ z 32 ⊝ z 4 ⊛ z 6 ⊛ z 42)),
(4608, z 5 ⊛ z 548 ⊛ (z 6 ⊝ z 3 ⊛ z 42 ⊝ z 4 ⊛ z 41)),
(4609, z 4607 ⊛ q4p ⊹ z 548 ⊛ z 275 ⊝ n 2 ⊛ z 4608 ⊛ q5p ⊝ z 546 ⊛ z 276),
(4610, ic31 ⊛ z 678 ⊹ ic11 ⊛ z 50 ⊛ z 546),
(4611, z 678 ⊛ z 757 ⊹ z 4610 ⊛ z 267 ⊝ z 4605 ⊛ z 265 ⊝ z 50 ⊛ z 546 ⊛ z 758),
(4612, z 685 ⊛ z 781 ⊹ id11 ⊛ z 684 ⊛ z 283 ⊝ z 684 ⊛ z 783 ⊝ id11 ⊛ z 685 ⊛ z 281),
(4613, ic22 ⊛ z 677 ⊛ z 265 ⊹ z 50 ⊛ z 546 ⊛ z 759 ⊝ z 677 ⊛ z 757 ⊝ z 4610 ⊛ z 266),
(4614, neg (z 7) ⊛ z 4601 ⊝ z 8 ⊛ z 4603),
(4615, z 3 ⊛ z 548 ⊛ (z 5 ⊛ z 7 ⊝ z 6 ⊛ z 8)),
(4616, z 4614 ⊛ q4p ⊝ z 43 ⊛ z 4615 ⊛ q3p ⊝ z 548 ⊛ z 286 ⊝ z 43 ⊛ z 546 ⊛ z 285),
(4617, z 677 ⊛ z 783 ⊹ id11 ⊛ z 685 ⊛ z 282 ⊝ z 685 ⊛ z 782 ⊝ id22 ⊛ z 677 ⊛ z 283),
(4618, z 7 ⊛ z 4603 ⊝ z 8 ⊛ z 4601),
(4619, z 3 ⊛ z 548 ⊛ (z 5 ⊛ z 8 ⊹ z 6 ⊛ z 7)),
(4620, z 4618 ⊛ q4p ⊹ z 548 ⊛ z 290 ⊝ z 43 ⊛ z 4619 ⊛ q3p ⊝ z 43 ⊛ z 546 ⊛ z 289),
(4621, z 684 ⊛ z 782 ⊹ id22 ⊛ z 677 ⊛ z 281 ⊝ z 677 ⊛ z 781 ⊝ id11 ⊛ z 684 ⊛ z 282),
(4622, z 6 ⊛ z 9 ⊹ z 5 ⊛ z 10 ⊛ z 548),
(4623, neg (z 3) ⊛ z 10 ⊝ z 4 ⊛ z 4622),
(4624, z 4 ⊛ z 10 ⊝ z 3 ⊛ z 4622),
(4625, z 32 ⊛ z 4623 ⊹ z 4 ⊛ z 6 ⊛ z 69 ⊛ z 548 ⊝ z 31 ⊛ z 4624 ⊝ z 3 ⊛ z 6 ⊛ z 29 ⊛ z 548),
(4626, z 5 ⊛ z 9 ⊝ z 6 ⊛ z 10 ⊛ z 548),
(4627, z 6 ⊛ z 4622 ⊹ z 3 ⊛ z 32 ⊛ z 4626 ⊹ z 4 ⊛ z 31 ⊛ z 4626 ⊹ z 5 ⊛ z 26 ⊛ z 548 ⊝ z 3 ⊛ z 6 ⊛
    z 72 ⊛ z 548 ⊝ z 4 ⊛ z 6 ⊛ z 71 ⊛ z 548),
(4628, z 5 ⊛ z 9 ⊛ z 548 ⊝ z 6 ⊛ z 10),
(4629, z 3 ⊛ z 4628 ⊝ z 4 ⊛ z 9),
(4630, neg (z 5) ⊛ z 10 ⊝ z 6 ⊛ z 9 ⊛ z 548),
(4631, neg (z 3) ⊛ z 9 ⊝ z 4 ⊛ z 4628),
(4632, z 32 ⊛ z 4629 ⊹ z 4 ⊛ z 6 ⊛ z 70 ⊛ z 548 ⊝ z 6 ⊛ z 4630 ⊝ z 31 ⊛ z 4631 ⊝ z 5 ⊛ z 23 ⊛ z
    548 ⊝ z 3 ⊛ z 6 ⊛ z 66 ⊛ z 548),
(4633, z 4 ⊛ z 9 ⊝ z 3 ⊛ z 4628),
(4634, z 4625 ⊛ q4p ⊹ z 4627 ⊛ q5p ⊹ z 4632 ⊛ q7p ⊹ z 43 ⊛ z 4633 ⊛ q3p ⊹ z 307 ⊹ z 548 ⊛ z 299 ⊝
    z 43 ⊛ z 546 ⊛ z 308),
(4635, z 3 ⊛ z 4622 ⊝ z 4 ⊛ z 10),
(4636, z 3 ⊛ z 9 ⊹ z 4 ⊛ z 4628),
(4637, z 27 ⊛ z 4635 ⊹ z 29 ⊛ z 4629 ⊹ z 30 ⊛ z 4636 ⊹ z 66 ⊛ z 4623),
(4638, z 24 ⊛ z 4626 ⊹ z 25 ⊛ z 4628 ⊹ z 67 ⊛ z 4623 ⊹ z 4 ⊛ z 29 ⊛ z 4630 ⊝ z 68 ⊛ z 4635 ⊝ z 3 ⊛
    z 30 ⊛ z 4630),
(4639, n 2 ⊛ z 25 ⊛ z 4626 ⊹ n 2 ⊛ z 29 ⊛ z 4623 ⊹ n 2 ⊛ z 30 ⊛ z 4635),
(4640, z 4637 ⊛ q4p ⊹ z 4638 ⊛ q5p ⊹ z 4639 ⊛ q7p ⊹ z 318 ⊹ z 548 ⊛ z 317 ⊝ z 3 ⊛ z 6 ⊛ z 43 ⊛ z
    548 ⊛ q3p ⊝ z 43 ⊛ z 546 ⊛ z 268),
(4641, ie31 ⊛ z 691 ⊹ ie33 ⊛ z 692),
(4642, z 693 ⊛ z 801 ⊹ z 4641 ⊛ z 293 ⊝ z 692 ⊛ z 802 ⊝ ie22 ⊛ z 693 ⊛ z 294),
(4643, z 3 ⊛ z 6 ⊛ z 27 ⊛ z 548 ⊹ z 4 ⊛ z 6 ⊛ z 28 ⊛ z 548 ⊝ z 31 ⊛ z 4633 ⊝ z 32 ⊛ z 4636),
(4644, z 5 ⊛ z 4630 ⊹ z 41 ⊛ z 4636 ⊹ z 4 ⊛ z 5 ⊛ z 27 ⊛ z 548 ⊝ z 42 ⊛ z 4633 ⊝ z 6 ⊛ z 23 ⊛ z
    548 ⊝ z 3 ⊛ z 5 ⊛ z 28 ⊛ z 548),
(4645, z 4643 ⊛ q4p ⊹ z 4644 ⊛ q5p ⊹ z 43 ⊛ z 4635 ⊛ q3p ⊹ z 548 ⊛ z 311 ⊝ z 43 ⊛ z 546 ⊛ z 313),
(4646, ie11 ⊛ z 691 ⊹ ie31 ⊛ z 692),
(4647, z 692 ⊛ z 800 ⊹ z 4646 ⊛ z 294 ⊝ z 691 ⊛ z 801 ⊝ z 4641 ⊛ z 292),
(4648, z 96 ⊹ z 95 ⊛ z 548 ⊝ z 94 ⊛ z 546),
(4649, z 93 ⊹ z 91 ⊛ z 548 ⊝ z 90 ⊛ z 546),
(4650, z 4648 ⊛ z 830 ⊹ if11 ⊛ z 4649 ⊛ z 323 ⊝ z 4649 ⊛ z 832 ⊝ if11 ⊛ z 4648 ⊛ z 321),
(4651, z 691 ⊛ z 802 ⊹ ie22 ⊛ z 693 ⊛ z 292 ⊝ z 693 ⊛ z 800 ⊝ z 4646 ⊛ z 293),
(4652, z 11 ⊛ z 4625 ⊝ z 12 ⊛ z 4637 ⊝ z 11 ⊛ z 80 ⊛ z 551 ⊝ z 12 ⊛ z 74 ⊛ z 551),
(4653, z 11 ⊛ z 4627 ⊝ z 12 ⊛ z 4638 ⊝ z 11 ⊛ z 78 ⊛ z 551 ⊝ z 12 ⊛ z 73 ⊛ z 551),
(4654, z 11 ⊛ z 4632 ⊝ z 12 ⊛ z 4639 ⊝ z 11 ⊛ z 79 ⊛ z 551 ⊝ z 12 ⊛ z 75 ⊛ z 551),
(4655, z 11 ⊛ z 4633 ⊹ z 3 ⊛ z 6 ⊛ z 12 ⊛ z 548 ⊝ z 11 ⊛ z 32 ⊛ z 551 ⊝ z 12 ⊛ z 28 ⊛ z 551),
(4656, z 4652 ⊛ q4p ⊹ z 4653 ⊛ q5p ⊹ z 4654 ⊛ q7p ⊹ z 43 ⊛ z 4655 ⊛ q3p ⊹ z 327 ⊹ z 548 ⊛ z 325 ⊝
    z 43 ⊛ z 546 ⊛ z 324),
(4657, z 76 ⊛ z 548 ⊹ z 83 ⊛ z 551 ⊝ z 82 ⊛ z 546),
(4658, z 4657 ⊛ z 832 ⊹ if11 ⊛ z 4648 ⊛ z 322 ⊝ z 4648 ⊛ z 831 ⊝ if22 ⊛ z 4657 ⊛ z 323),
(4659, z 11 ⊛ z 4637 ⊹ z 12 ⊛ z 4625 ⊹ z 11 ⊛ z 74 ⊛ z 551 ⊝ z 12 ⊛ z 80 ⊛ z 551),
(4660, z 11 ⊛ z 4638 ⊹ z 12 ⊛ z 4627 ⊹ z 11 ⊛ z 73 ⊛ z 551 ⊝ z 12 ⊛ z 78 ⊛ z 551),
(4661, z 11 ⊛ z 4639 ⊹ z 12 ⊛ z 4632 ⊹ z 11 ⊛ z 75 ⊛ z 551 ⊝ z 12 ⊛ z 79 ⊛ z 551),
(4662, z 12 ⊛ z 4633 ⊹ z 11 ⊛ z 28 ⊛ z 551 ⊝ z 12 ⊛ z 32 ⊛ z 551 ⊝ z 3 ⊛ z 6 ⊛ z 11 ⊛ z 548),
(4663, z 4659 ⊛ q4p ⊹ z 4660 ⊛ q5p ⊹ z 4661 ⊛ q7p ⊹ z 43 ⊛ z 4662 ⊛ q3p ⊹ z 331 ⊹ z 548 ⊛ z 330 ⊝
    z 43 ⊛ z 546 ⊛ z 329),
(4664, z 4649 ⊛ z 831 ⊹ if22 ⊛ z 4657 ⊛ z 321 ⊝ z 4657 ⊛ z 830 ⊝ if11 ⊛ z 4649 ⊛ z 322),
(4665, z 14 ⊛ z 4603 ⊝ z 13 ⊛ z 4601),
(4666, z 3 ⊛ z 548 ⊛ (z 13 ⊛ z 5 ⊹ z 14 ⊛ z 6)),
(4667, z 4665 ⊛ q4p ⊹ z 14 ⊛ z 548 ⊛ z 278 ⊝ z 43 ⊛ z 4666 ⊛ q3p ⊝ z 43 ⊛ z 546 ⊛ z 341),
(4668, z 18 ⊛ z 4601 ⊹ z 20 ⊛ z 4603 ⊝ z 15 ⊛ z 4607),
(4669, z 3 ⊛ z 548 ⊛ (z 5 ⊛ z 18 ⊝ z 6 ⊛ z 20)),
(4670, z 4668 ⊛ q4p ⊹ z 43 ⊛ z 4669 ⊛ q3p ⊹ n 2 ⊛ z 15 ⊛ z 4608 ⊛ q5p ⊹ z 548 ⊛ z 349 ⊝ z 43 ⊛ z
    546 ⊛ z 348),
(4671, ig31 ⊛ z 700 ⊹ ig33 ⊛ z 702),
(4672, z 701 ⊛ z 852 ⊹ z 4671 ⊛ z 335 ⊝ z 702 ⊛ z 853 ⊝ ig22 ⊛ z 701 ⊛ z 336),
(4673, z 16 ⊛ z 4601 ⊹ z 17 ⊛ z 4607 ⊹ z 19 ⊛ z 4603),
(4674, z 3 ⊛ z 548 ⊛ (z 5 ⊛ z 16 ⊝ z 6 ⊛ z 19)),
(4675, z 4673 ⊛ q4p ⊹ z 43 ⊛ z 4674 ⊛ q3p ⊹ z 548 ⊛ z 346 ⊝ n 2 ⊛ z 17 ⊛ z 4608 ⊛ q5p ⊝ z 43 ⊛ z
    546 ⊛ z 344),
(4676, ig11 ⊛ z 700 ⊹ ig31 ⊛ z 702),
(4677, z 702 ⊛ z 851 ⊹ z 4676 ⊛ z 336 ⊝ z 700 ⊛ z 852 ⊝ z 4671 ⊛ z 334),
(4678, z 700 ⊛ z 853 ⊹ ig22 ⊛ z 701 ⊛ z 334 ⊝ z 701 ⊛ z 851 ⊝ z 4676 ⊛ z 335),
(4679, z 546 ⊛ (z 354 ⊹ z 3 ⊛ z 43 ⊛ z 353)),
(4680, z 546 ⊛ (z 43 ⊛ z 352 ⊹ z 118 ⊛ z 356)),
(4681, z 5 ⊛ z 4679 ⊹ z 41 ⊛ z 4680),
(4682, z 677 ⊛ (z 173 ⊛ q4p ⊹ z 174 ⊛ q5p ⊹ z 175 ⊛ q3p) ⊹ z 4681 ⊹ z 22 ⊛ z 4609 ⊹ (z 171 ⊛ z 546
    ⊹ z 172 ⊛ z 548) ⊛ z 267 ⊹ (z 174 ⊛ z 548 ⊝ z 175 ⊛ z 546) ⊛ z 266 ⊝ z 678 ⊛ (z 170 ⊛ q4p ⊹ z
    171 ⊛ q3p ⊝ z 172 ⊛ q5p)),
(4683, z 6 ⊛ z 4679 ⊝ z 31 ⊛ z 4680)]

/-- _mooreriderlean2012.py:9941-10041 -/
def part85 : List (ℕ × E) := [
(4684, z 50 ⊛ z 546 ⊛ (z 170 ⊛ q4p ⊹ z 171 ⊛ q3p ⊝ z 172 ⊛ q5p) ⊹ z 4683 ⊹ z 21 ⊛ z 4609 ⊝ z 677 ⊛
    (z 176 ⊛ q4p ⊹ z 177 ⊛ q5p ⊹ z 178 ⊛ q3p) ⊝ (z 171 ⊛ z 546 ⊹ z 172 ⊛ z 548) ⊛ z 265 ⊝ (z 177 ⊛
    z 548 ⊝ z 178 ⊛ z 546) ⊛ z 266),
(4685, z 13 ⊛ z 4682 ⊹ z 14 ⊛ z 4684),
(4686, z 4685 ⊹ l6 ⊛ z 4675 ⊹ (z 197 ⊛ z 546 ⊝ z 198 ⊛ z 548) ⊛ z 336 ⊹ (z 202 ⊛ z 546 ⊝ z 204 ⊛ z
    548) ⊛ z 335 ⊝ z 701 ⊛ (z 201 ⊛ q9p ⊹ z 202 ⊛ q3p ⊹ z 203 ⊛ q4p ⊹ z 204 ⊛ q5p) ⊝ z 702 ⊛ (z
    197 ⊛ q3p ⊹ z 198 ⊛ q5p ⊹ z 199 ⊛ q4p ⊝ z 200 ⊛ q9p)),
(4687, neg (z 21) ⊛ z 4604 ⊝ z 22 ⊛ z 4602),
(4688, z 678 ⊛ (z 176 ⊛ q4p ⊹ z 177 ⊛ q5p ⊹ z 178 ⊛ q3p) ⊹ z 4687 ⊹ z 3 ⊛ z 4680 ⊹ (z 177 ⊛ z 548
    ⊝ z 178 ⊛ z 546) ⊛ z 267 ⊝ z 50 ⊛ z 546 ⊛ (z 173 ⊛ q4p ⊹ z 174 ⊛ q5p ⊹ z 175 ⊛ q3p) ⊝ (z 174 ⊛
    z 548 ⊝ z 175 ⊛ z 546) ⊛ z 265),
(4689, z 17 ⊛ z 4688 ⊹ z 19 ⊛ z 4684 ⊝ z 16 ⊛ z 4682),
(4690, l5 ⊛ z 4670 ⊝ l6 ⊛ z 4667),
(4691, z 700 ⊛ (z 201 ⊛ q9p ⊹ z 202 ⊛ q3p ⊹ z 203 ⊛ q4p ⊹ z 204 ⊛ q5p) ⊹ z 702 ⊛ (z 205 ⊛ q9p ⊹ z
    206 ⊛ q3p ⊹ z 207 ⊛ q4p ⊹ z 208 ⊛ q5p) ⊹ z 4689 ⊹ z 4690 ⊝ (z 202 ⊛ z 546 ⊝ z 204 ⊛ z 548) ⊛ z
    334 ⊝ (z 206 ⊛ z 546 ⊝ z 208 ⊛ z 548) ⊛ z 336),
(4692, z 20 ⊛ z 4684 ⊝ z 15 ⊛ z 4688 ⊝ z 18 ⊛ z 4682),
(4693, z 700 ⊛ (z 197 ⊛ q3p ⊹ z 198 ⊛ q5p ⊹ z 199 ⊛ q4p ⊝ z 200 ⊛ q9p) ⊹ z 4692 ⊹ (z 206 ⊛ z 546 ⊝
    z 208 ⊛ z 548) ⊛ z 335 ⊝ z 701 ⊛ (z 205 ⊛ q9p ⊹ z 206 ⊛ q3p ⊹ z 207 ⊛ q4p ⊹ z 208 ⊛ q5p) ⊝ l5
    ⊛ z 4675 ⊝ (z 197 ⊛ z 546 ⊝ z 198 ⊛ z 548) ⊛ z 334),
(4694, z 50 ⊛ z 546 ⊛ (z 128 ⊛ q5p ⊹ z 129 ⊛ q4p ⊹ z 130 ⊛ q3p) ⊹ z 4683 ⊹ (z 128 ⊛ z 548 ⊝ z 130
    ⊛ z 546) ⊛ z 265 ⊝ z 677 ⊛ (z 134 ⊛ q4p ⊹ z 135 ⊛ q5p ⊹ z 136 ⊛ q3p) ⊝ l1 ⊛ z 4609 ⊝ (z 135 ⊛
    z 548 ⊝ z 136 ⊛ z 546) ⊛ z 266),
(4695, z 4681 ⊹ l2 ⊛ z 4609 ⊝ z 677 ⊛ (z 131 ⊛ q4p ⊹ z 132 ⊛ q5p ⊹ z 133 ⊛ q3p) ⊝ z 678 ⊛ (z 128 ⊛
    q5p ⊹ z 129 ⊛ q4p ⊹ z 130 ⊛ q3p) ⊝ (z 128 ⊛ z 548 ⊝ z 130 ⊛ z 546) ⊛ z 267 ⊝ (z 132 ⊛ z 548 ⊝
    z 133 ⊛ z 546) ⊛ z 266),
(4696, l1 ⊛ z 4604 ⊝ l2 ⊛ z 4602),
(4697, z 678 ⊛ (z 134 ⊛ q4p ⊹ z 135 ⊛ q5p ⊹ z 136 ⊛ q3p) ⊹ z 50 ⊛ z 546 ⊛ (z 131 ⊛ q4p ⊹ z 132 ⊛
    q5p ⊹ z 133 ⊛ q3p) ⊹ z 4696 ⊹ z 3 ⊛ z 4680 ⊹ (z 132 ⊛ z 548 ⊝ z 133 ⊛ z 546) ⊛ z 265 ⊹ (z 135
    ⊛ z 548 ⊝ z 136 ⊛ z 546) ⊛ z 267),
(4698, z 50 ⊛ z 546 ⊛ (z 143 ⊛ q5p ⊹ z 144 ⊛ q4p ⊹ z 145 ⊛ q3p) ⊹ z 4683 ⊹ (z 143 ⊛ z 548 ⊝ z 145
    ⊛ z 546) ⊛ z 265 ⊝ d1 ⊛ z 4609),
(4699, z 691 ⊛ (z 159 ⊛ q3p ⊹ z 160 ⊛ q5p ⊹ z 161 ⊛ q7p ⊹ z 162 ⊛ q4p) ⊝ z 693 ⊛ (z 164 ⊛ q5p ⊹ z
    165 ⊛ q4p ⊹ z 166 ⊛ q3p) ⊝ z 158 ⊛ z 4645 ⊝ (z 164 ⊛ z 548 ⊝ z 166 ⊛ z 546) ⊛ z 293 ⊝ (z 159 ⊛
    z 546 ⊝ z 161 ⊝ z 160 ⊛ z 548) ⊛ z 292),
(4700, z 4681 ⊝ z 677 ⊛ (z 140 ⊛ q4p ⊹ z 141 ⊛ q5p ⊹ z 142 ⊛ q3p) ⊝ z 678 ⊛ (z 143 ⊛ q5p ⊹ z 144 ⊛
    q4p ⊹ z 145 ⊛ q3p) ⊝ (z 141 ⊛ z 548 ⊝ z 142 ⊛ z 546) ⊛ z 266 ⊝ (z 143 ⊛ z 548 ⊝ z 145 ⊛ z 546)
    ⊛ z 267),
(4701, z 50 ⊛ z 546 ⊛ (z 140 ⊛ q4p ⊹ z 141 ⊛ q5p ⊹ z 142 ⊛ q3p) ⊹ d1 ⊛ z 4604 ⊹ z 3 ⊛ z 4680 ⊹ (z
    141 ⊛ z 548 ⊝ z 142 ⊛ z 546) ⊛ z 265),
(4702, z 158 ⊛ z 4640 ⊝ d2 ⊛ z 4634 ⊝ l4 ⊛ z 4634),
(4703, z 691 ⊛ (z 167 ⊛ q5p ⊹ z 168 ⊛ q4p ⊹ z 169 ⊛ q3p) ⊹ z 692 ⊛ (z 164 ⊛ q5p ⊹ z 165 ⊛ q4p ⊹ z
    166 ⊛ q3p) ⊹ z 4702 ⊹ (z 164 ⊛ z 548 ⊝ z 166 ⊛ z 546) ⊛ z 294 ⊹ (z 167 ⊛ z 548 ⊝ z 169 ⊛ z
    546) ⊛ z 292),
(4704, z 163 ⊛ z 4645 ⊹ (z 159 ⊛ z 546 ⊝ z 161 ⊝ z 160 ⊛ z 548) ⊛ z 294 ⊝ z 693 ⊛ (z 167 ⊛ q5p ⊹ z
    168 ⊛ q4p ⊹ z 169 ⊛ q3p) ⊝ z 692 ⊛ (z 159 ⊛ q3p ⊹ z 160 ⊛ q5p ⊹ z 161 ⊛ q7p ⊹ z 162 ⊛ q4p) ⊝
    (z 167 ⊛ z 548 ⊝ z 169 ⊛ z 546) ⊛ z 293),
(4705, z 691 ⊛ (z 148 ⊛ q3p ⊹ z 149 ⊛ q5p ⊹ z 150 ⊛ q7p ⊹ z 151 ⊛ q4p) ⊝ z 693 ⊛ (z 152 ⊛ q5p ⊹ z
    153 ⊛ q4p ⊹ z 154 ⊛ q3p) ⊝ d3 ⊛ z 4645 ⊝ (z 152 ⊛ z 548 ⊝ z 154 ⊛ z 546) ⊛ z 293 ⊝ (z 148 ⊛ z
    546 ⊝ z 150 ⊝ z 149 ⊛ z 548) ⊛ z 292),
(4706, d3 ⊛ z 4640 ⊝ d2 ⊛ z 4634),
(4707, z 691 ⊛ (z 155 ⊛ q5p ⊹ z 156 ⊛ q4p ⊹ z 157 ⊛ q3p) ⊹ z 692 ⊛ (z 152 ⊛ q5p ⊹ z 153 ⊛ q4p ⊹ z
    154 ⊛ q3p) ⊹ z 4706 ⊹ (z 152 ⊛ z 548 ⊝ z 154 ⊛ z 546) ⊛ z 294 ⊹ (z 155 ⊛ z 548 ⊝ z 157 ⊛ z
    546) ⊛ z 292),
(4708, d2 ⊛ z 4645 ⊹ (z 148 ⊛ z 546 ⊝ z 150 ⊝ z 149 ⊛ z 548) ⊛ z 294 ⊝ z 693 ⊛ (z 155 ⊛ q5p ⊹ z
    156 ⊛ q4p ⊹ z 157 ⊛ q3p) ⊝ z 692 ⊛ (z 148 ⊛ q3p ⊹ z 149 ⊛ q5p ⊹ z 150 ⊛ q7p ⊹ z 151 ⊛ q4p) ⊝
    (z 155 ⊛ z 548 ⊝ z 157 ⊛ z 546) ⊛ z 293),
(4709, z 45 ⊛ z 4606 ⊹ z 46 ⊛ z 4611 ⊹ z 46 ⊛ z 4612 ⊹ z 49 ⊛ z 4613 ⊹ z 60 ⊛ z 4617 ⊹ z 63 ⊛ z
    4621 ⊹ z 74 ⊛ z 4642 ⊹ z 77 ⊛ z 4647 ⊹ z 77 ⊛ z 4650 ⊹ z 80 ⊛ z 4651 ⊹ z 92 ⊛ z 4658 ⊹ z 97 ⊛
    z 4664 ⊹ z 109 ⊛ z 4672 ⊹ z 113 ⊛ z 4677 ⊹ z 117 ⊛ z 4678 ⊹ ic11 ⊛ z 45 ⊛ z 4602 ⊹ ic22 ⊛ z 46
    ⊛ z 4609 ⊹ ic31 ⊛ z 45 ⊛ z 4604 ⊹ ic31 ⊛ z 49 ⊛ z 4602 ⊹ ic33 ⊛ z 49 ⊛ z 4604 ⊹ id11 ⊛ z 60 ⊛
    z 4616 ⊹ id11 ⊛ z 63 ⊛ z 4620 ⊹ id22 ⊛ z 46 ⊛ z 4609 ⊹ ie11 ⊛ z 74 ⊛ z 4634 ⊹ ie22 ⊛ z 77 ⊛ z
    4645 ⊹ ie31 ⊛ z 74 ⊛ z 4640 ⊹ ie31 ⊛ z 80 ⊛ z 4634 ⊹ ie33 ⊛ z 80 ⊛ z 4640 ⊹ if11 ⊛ z 92 ⊛ z
    4656 ⊹ if11 ⊛ z 97 ⊛ z 4663 ⊹ if22 ⊛ z 77 ⊛ z 4645 ⊹ ig11 ⊛ z 109 ⊛ z 4667 ⊹ ig22 ⊛ z 113 ⊛ z
    4675 ⊹ ig31 ⊛ z 109 ⊛ z 4670 ⊹ ig31 ⊛ z 117 ⊛ z 4667 ⊹ ig33 ⊛ z 117 ⊛ z 4670 ⊹ md ⊛ z 3 ⊛ z
    119 ⊛ z 4680 ⊹ mg ⊛ (z 209 ⊛ z 4686 ⊹ z 212 ⊛ z 4691 ⊹ z 215 ⊛ z 4693) ⊝ mc ⊛ (z 131 ⊛ z 4694
    ⊝ z 134 ⊛ z 4695 ⊝ z 139 ⊛ z 4697) ⊝ me ⊛ (z 140 ⊛ z 4698 ⊹ z 140 ⊛ z 4699 ⊹ z 168 ⊛ z 4698 ⊹
    z 168 ⊛ z 4699 ⊹ z 10 ⊛ z 162 ⊛ z 4700 ⊝ z 147 ⊛ z 4701 ⊝ z 162 ⊛ z 4703 ⊝ z 165 ⊛ z 4704 ⊝ z
    9 ⊛ z 147 ⊛ z 4703 ⊝ z 9 ⊛ z 162 ⊛ z 4701 ⊝ z 9 ⊛ z 165 ⊛ z 4700 ⊝ z 10 ⊛ z 147 ⊛ z 4704 ⊝ z
    10 ⊛ z 165 ⊛ z 4701) ⊝ mf ⊛ (z 140 ⊛ z 4698 ⊹ z 140 ⊛ z 4705 ⊹ z 156 ⊛ z 4698 ⊹ z 156 ⊛ z 4705
    ⊹ z 10 ⊛ z 151 ⊛ z 4700 ⊝ z 147 ⊛ z 4701 ⊝ z 151 ⊛ z 4707 ⊝ z 153 ⊛ z 4708 ⊝ z 9 ⊛ z 147 ⊛ z
    4707 ⊝ z 9 ⊛ z 151 ⊛ z 4701 ⊝ z 9 ⊛ z 153 ⊛ z 4700 ⊝ z 10 ⊛ z 147 ⊛ z 4708 ⊝ z 10 ⊛ z 153 ⊛ z
    4701)),
(4710, md ⊛ (z 1 ⊛ z 4679 ⊝ z 2 ⊛ z 4680) ⊹ mg ⊛ (z 182 ⊛ z 4686 ⊹ z 187 ⊛ z 4691 ⊹ z 192 ⊛ z
    4693) ⊹ me ⊛ (z 120 ⊛ z 4700 ⊹ z 122 ⊛ z 4698 ⊹ z 122 ⊛ z 4699 ⊹ z 9 ⊛ z 120 ⊛ z 4704 ⊝ z 121
    ⊛ z 4701 ⊝ z 9 ⊛ z 121 ⊛ z 4703 ⊝ z 10 ⊛ z 120 ⊛ z 4703 ⊝ z 10 ⊛ z 121 ⊛ z 4704) ⊹ mf ⊛ (z 120
    ⊛ z 4700 ⊹ z 122 ⊛ z 4698 ⊹ z 122 ⊛ z 4705 ⊹ z 9 ⊛ z 120 ⊛ z 4708 ⊝ z 121 ⊛ z 4701 ⊝ z 9 ⊛ z
    121 ⊛ z 4707 ⊝ z 10 ⊛ z 120 ⊛ z 4707 ⊝ z 10 ⊛ z 121 ⊛ z 4708) ⊝ mc ⊛ (z 121 ⊛ z 4697 ⊝ z 120 ⊛
    z 4695 ⊝ z 122 ⊛ z 4694)),
(4711, z 51 ⊛ z 4611 ⊹ z 51 ⊛ z 4612 ⊹ z 52 ⊛ z 4613 ⊹ z 52 ⊛ z 4651 ⊹ z 61 ⊛ z 4617 ⊹ z 64 ⊛ z
    4621 ⊹ z 81 ⊛ z 4642 ⊹ z 82 ⊛ z 4647 ⊹ z 82 ⊛ z 4650 ⊹ z 90 ⊛ z 4658 ⊹ z 94 ⊛ z 4664 ⊹ z 110 ⊛
    z 4672 ⊹ z 112 ⊛ z 4677 ⊹ z 115 ⊛ z 4678 ⊹ ic22 ⊛ z 51 ⊛ z 4609 ⊹ ic31 ⊛ z 52 ⊛ z 4602 ⊹ ic33
    ⊛ z 52 ⊛ z 4604 ⊹ id11 ⊛ z 61 ⊛ z 4616 ⊹ id11 ⊛ z 64 ⊛ z 4620 ⊹ id22 ⊛ z 51 ⊛ z 4609 ⊹ ie11 ⊛
    z 81 ⊛ z 4634 ⊹ ie22 ⊛ z 82 ⊛ z 4645 ⊹ ie31 ⊛ z 52 ⊛ z 4634 ⊹ ie31 ⊛ z 81 ⊛ z 4640 ⊹ ie33 ⊛ z
    52 ⊛ z 4640 ⊹ if11 ⊛ z 90 ⊛ z 4656 ⊹ if11 ⊛ z 94 ⊛ z 4663 ⊹ if22 ⊛ z 82 ⊛ z 4645 ⊹ ig11 ⊛ z
    110 ⊛ z 4667 ⊹ ig22 ⊛ z 112 ⊛ z 4675 ⊹ ig31 ⊛ z 110 ⊛ z 4670 ⊹ ig31 ⊛ z 115 ⊛ z 4667 ⊹ ig33 ⊛
    z 115 ⊛ z 4670 ⊹ mc ⊛ (z 130 ⊛ z 4697 ⊹ z 137 ⊛ z 4695 ⊹ z 138 ⊛ z 4694) ⊹ mg ⊛ (z 211 ⊛ z
    4686 ⊹ z 214 ⊛ z 4691 ⊹ z 217 ⊛ z 4693) ⊝ z 50 ⊛ z 4606 ⊝ ic11 ⊛ z 50 ⊛ z 4602 ⊝ ic31 ⊛ z 50 ⊛
    z 4604 ⊝ md ⊛ z 118 ⊛ z 4679 ⊝ me ⊛ (z 126 ⊛ z 4700 ⊹ z 169 ⊛ z 4698 ⊹ z 169 ⊛ z 4699 ⊹ z 9 ⊛
    z 126 ⊛ z 4704 ⊹ z 10 ⊛ z 159 ⊛ z 4700 ⊝ z 145 ⊛ z 4701 ⊝ z 146 ⊛ z 4698 ⊝ z 146 ⊛ z 4699 ⊝ z
    159 ⊛ z 4703 ⊝ z 166 ⊛ z 4704 ⊝ z 9 ⊛ z 145 ⊛ z 4703 ⊝ z 9 ⊛ z 159 ⊛ z 4701 ⊝ z 9 ⊛ z 166 ⊛ z
    4700 ⊝ z 10 ⊛ z 126 ⊛ z 4703 ⊝ z 10 ⊛ z 145 ⊛ z 4704 ⊝ z 10 ⊛ z 166 ⊛ z 4701) ⊝ mf ⊛ (z 126 ⊛
    z 4700 ⊹ z 157 ⊛ z 4698 ⊹ z 157 ⊛ z 4705 ⊹ z 9 ⊛ z 126 ⊛ z 4708 ⊹ z 10 ⊛ z 148 ⊛ z 4700 ⊝ z
    145 ⊛ z 4701 ⊝ z 146 ⊛ z 4698 ⊝ z 146 ⊛ z 4705 ⊝ z 148 ⊛ z 4707 ⊝ z 154 ⊛ z 4708 ⊝ z 9 ⊛ z 145
    ⊛ z 4707 ⊝ z 9 ⊛ z 148 ⊛ z 4701 ⊝ z 9 ⊛ z 154 ⊛ z 4700 ⊝ z 10 ⊛ z 126 ⊛ z 4707 ⊝ z 10 ⊛ z 145
    ⊛ z 4708 ⊝ z 10 ⊛ z 154 ⊛ z 4701))]

/-- _mooreriderlean2012.py:10042-10162 -/
def part86 : List (ℕ × E) := [
(4712, z 47 ⊛ z 4611 ⊹ z 47 ⊛ z 4612 ⊹ z 48 ⊛ z 4613 ⊹ z 65 ⊛ z 4621 ⊹ z 73 ⊛ z 4642 ⊹ z 76 ⊛ z
    4647 ⊹ z 76 ⊛ z 4650 ⊹ z 78 ⊛ z 4651 ⊹ z 91 ⊛ z 4658 ⊹ z 95 ⊛ z 4664 ⊹ z 111 ⊛ z 4672 ⊹ z 114
    ⊛ z 4677 ⊹ z 116 ⊛ z 4678 ⊹ ic22 ⊛ z 47 ⊛ z 4609 ⊹ ic31 ⊛ z 48 ⊛ z 4602 ⊹ ic33 ⊛ z 48 ⊛ z 4604
    ⊹ id11 ⊛ z 65 ⊛ z 4620 ⊹ id22 ⊛ z 47 ⊛ z 4609 ⊹ ie11 ⊛ z 73 ⊛ z 4634 ⊹ ie22 ⊛ z 76 ⊛ z 4645 ⊹
    ie31 ⊛ z 73 ⊛ z 4640 ⊹ ie31 ⊛ z 78 ⊛ z 4634 ⊹ ie33 ⊛ z 78 ⊛ z 4640 ⊹ if11 ⊛ z 91 ⊛ z 4656 ⊹
    if11 ⊛ z 95 ⊛ z 4663 ⊹ if22 ⊛ z 76 ⊛ z 4645 ⊹ ig11 ⊛ z 111 ⊛ z 4667 ⊹ ig22 ⊛ z 114 ⊛ z 4675 ⊹
    ig31 ⊛ z 111 ⊛ z 4670 ⊹ ig31 ⊛ z 116 ⊛ z 4667 ⊹ ig33 ⊛ z 116 ⊛ z 4670 ⊹ mg ⊛ (z 210 ⊛ z 4686 ⊹
    z 213 ⊛ z 4691 ⊹ z 216 ⊛ z 4693) ⊝ z 62 ⊛ z 4617 ⊝ id11 ⊛ z 62 ⊛ z 4616 ⊝ mc ⊛ (z 132 ⊛ z 4694
    ⊝ z 128 ⊛ z 4697 ⊝ z 135 ⊛ z 4695) ⊝ me ⊛ (z 141 ⊛ z 4698 ⊹ z 141 ⊛ z 4699 ⊹ z 167 ⊛ z 4698 ⊹
    z 167 ⊛ z 4699 ⊹ z 10 ⊛ z 160 ⊛ z 4700 ⊝ z 143 ⊛ z 4701 ⊝ z 160 ⊛ z 4703 ⊝ z 164 ⊛ z 4704 ⊝ z
    9 ⊛ z 143 ⊛ z 4703 ⊝ z 9 ⊛ z 160 ⊛ z 4701 ⊝ z 9 ⊛ z 164 ⊛ z 4700 ⊝ z 10 ⊛ z 143 ⊛ z 4704 ⊝ z
    10 ⊛ z 164 ⊛ z 4701) ⊝ mf ⊛ (z 141 ⊛ z 4698 ⊹ z 141 ⊛ z 4705 ⊹ z 155 ⊛ z 4698 ⊹ z 155 ⊛ z 4705
    ⊹ z 10 ⊛ z 149 ⊛ z 4700 ⊝ z 143 ⊛ z 4701 ⊝ z 149 ⊛ z 4707 ⊝ z 152 ⊛ z 4708 ⊝ z 9 ⊛ z 143 ⊛ z
    4707 ⊝ z 9 ⊛ z 149 ⊛ z 4701 ⊝ z 9 ⊛ z 152 ⊛ z 4700 ⊝ z 10 ⊛ z 143 ⊛ z 4708 ⊝ z 10 ⊛ z 152 ⊛ z
    4701)),
(4713, z 83 ⊛ (z 4650 ⊹ if22 ⊛ z 4645)),
(4714, md ⊛ (z 1 ⊛ z 4680 ⊹ z 2 ⊛ z 4679) ⊹ mc ⊛ (z 123 ⊛ z 4695 ⊹ z 124 ⊛ z 4697 ⊹ z 125 ⊛ z
    4694) ⊹ mg ⊛ (z 183 ⊛ z 4686 ⊹ z 188 ⊛ z 4691 ⊹ z 193 ⊛ z 4693) ⊝ me ⊛ (z 10 ⊛ z 123 ⊛ z 4703
    ⊝ z 123 ⊛ z 4700 ⊝ z 124 ⊛ z 4701 ⊝ z 125 ⊛ z 4698 ⊝ z 125 ⊛ z 4699 ⊝ z 9 ⊛ z 123 ⊛ z 4704 ⊝ z
    9 ⊛ z 124 ⊛ z 4703 ⊝ z 10 ⊛ z 124 ⊛ z 4704) ⊝ mf ⊛ (z 10 ⊛ z 123 ⊛ z 4707 ⊝ z 123 ⊛ z 4700 ⊝ z
    124 ⊛ z 4701 ⊝ z 125 ⊛ z 4698 ⊝ z 125 ⊛ z 4705 ⊝ z 9 ⊛ z 123 ⊛ z 4708 ⊝ z 9 ⊛ z 124 ⊛ z 4707 ⊝
    z 10 ⊛ z 124 ⊛ z 4708)),
(4715, z 4709 ⊹ z 538 ⊛ z 4710 ⊹ z 544 ⊛ z 4711 ⊹ z 547 ⊛ z 4712 ⊹ z 549 ⊛ z 4713 ⊝ z 541 ⊛ z
    4714),
(4716, z 1 ⊛ z 546 ⊛ (pow (z 3) 2 ⊹ pow (z 4) 2)),
(4717, z 2 ⊛ z 546 ⊛ (pow (z 3) 2 ⊹ pow (z 4) 2)),
(4718, z 548 ⊛ (z 5 ⊛ z 8 ⊹ z 6 ⊛ z 7)),
(4719, z 548 ⊛ (z 5 ⊛ z 7 ⊝ z 6 ⊛ z 8)),
(4720, rr ⊛ (z 60 ⊛ z 4718 ⊝ z 54 ⊛ z 4614 ⊝ z 55 ⊛ z 4618 ⊝ z 63 ⊛ z 4719)),
(4721, rr ⊛ (z 62 ⊛ z 4718 ⊹ z 65 ⊛ z 4719)),
(4722, rr ⊛ (z 64 ⊛ z 4719 ⊝ z 61 ⊛ z 4718 ⊝ z 43 ⊛ z 54 ⊛ z 4615 ⊝ z 43 ⊛ z 55 ⊛ z 4619)),
(4723, z 4716 ⊛ u1 ⊹ z 4717 ⊛ u2 ⊹ z 3 ⊛ z 4720 ⊛ u4 ⊹ z 543 ⊛ z 559 ⊹ z 546 ⊛ z 563 ⊹ z 548 ⊛ z
    565 ⊝ z 3 ⊛ z 4721 ⊛ u5 ⊝ z 3 ⊛ z 4722 ⊛ u3 ⊝ z 540 ⊛ z 556),
(4724, z 1 ⊛ z 5 ⊛ z 548 ⊹ z 2 ⊛ z 6 ⊛ z 546 ⊝ z 1 ⊛ z 31 ⊛ z 546 ⊝ z 2 ⊛ z 4 ⊛ z 6 ⊛ z 548),
(4725, z 1 ⊛ z 41 ⊛ z 546 ⊹ z 2 ⊛ z 5 ⊛ z 546 ⊝ z 1 ⊛ z 6 ⊛ z 548 ⊝ z 2 ⊛ z 4 ⊛ z 5 ⊛ z 548),
(4726, z 9 ⊛ z 4725 ⊹ z 1 ⊛ z 3 ⊛ z 10 ⊛ z 546 ⊝ z 9 ⊛ z 121 ⊝ z 10 ⊛ z 120),
(4727, z 10 ⊛ z 121 ⊹ z 1 ⊛ z 3 ⊛ z 9 ⊛ z 546 ⊝ z 9 ⊛ z 120 ⊝ z 10 ⊛ z 4725),
(4728, z 6 ⊛ z 4724 ⊹ z 23 ⊛ z 4726 ⊹ z 233 ⊛ z 4630 ⊹ z 5 ⊛ z 122 ⊛ z 548 ⊝ z 25 ⊛ z 4727 ⊝ z 238
    ⊛ z 4626),
(4729, z 2 ⊛ z 5 ⊛ z 548 ⊹ z 1 ⊛ z 4 ⊛ z 6 ⊛ z 548 ⊝ z 1 ⊛ z 6 ⊛ z 546 ⊝ z 2 ⊛ z 31 ⊛ z 546),
(4730, z 2 ⊛ z 41 ⊛ z 546 ⊹ z 1 ⊛ z 4 ⊛ z 5 ⊛ z 548 ⊝ z 1 ⊛ z 5 ⊛ z 546 ⊝ z 2 ⊛ z 6 ⊛ z 548),
(4731, z 9 ⊛ z 124 ⊹ z 9 ⊛ z 4730 ⊹ z 2 ⊛ z 3 ⊛ z 10 ⊛ z 546 ⊝ z 10 ⊛ z 123),
(4732, z 2 ⊛ z 3 ⊛ z 9 ⊛ z 546 ⊝ z 9 ⊛ z 123 ⊝ z 10 ⊛ z 124 ⊝ z 10 ⊛ z 4730),
(4733, z 6 ⊛ z 4729 ⊹ z 23 ⊛ z 4731 ⊹ z 234 ⊛ z 4630 ⊹ z 5 ⊛ z 125 ⊛ z 548 ⊝ z 25 ⊛ z 4732 ⊝ z 239
    ⊛ z 4626),
(4734, z 31 ⊛ z 4626 ⊝ z 6 ⊛ z 4623 ⊝ z 5 ⊛ z 29 ⊛ z 548 ⊝ z 4 ⊛ z 6 ⊛ z 25 ⊛ z 548),
(4735, z 23 ⊛ z 4623 ⊹ z 25 ⊛ z 4636 ⊹ z 27 ⊛ z 4626 ⊹ z 29 ⊛ z 4630),
(4736, n 2 ⊛ z 33 ⊛ z 4734 ⊹ n 2 ⊛ z 34 ⊛ z 4735),
(4737, (n 2 ⊛ z 36 ⊛ z 4734 ⊝ z 33 ⊛ z 4736 ⊘ hpow (z 35) 1) ⊘ pow (z 36) 2),
(4738, z 39 ⊛ z 43 ⊛ z 4635 ⊹ qt 2 ⊛ rf ⊛ z 82 ⊛ z 4737),
(4739, neg (z 4738) ⊝ d3 ⊛ z 43 ⊛ z 4635 ⊝ z 5 ⊛ z 118 ⊛ z 548),
(4740, d1 ⊛ z 3 ⊛ z 6 ⊛ z 43 ⊛ z 548),
(4741, z 9 ⊛ z 145 ⊹ z 10 ⊛ z 126 ⊹ d2 ⊛ z 43 ⊛ z 4635 ⊹ z 6 ⊛ z 9 ⊛ z 118 ⊛ z 548 ⊝ z 10 ⊛ z
    4740),
(4742, (n 2 ⊛ z 36 ⊛ z 4735 ⊝ z 34 ⊛ z 4736 ⊘ hpow (z 35) 1) ⊘ pow (z 36) 2),
(4743, z 40 ⊛ z 43 ⊛ z 4635 ⊹ qt 2 ⊛ rf ⊛ z 82 ⊛ z 4742),
(4744, z 43 ⊛ (d2 ⊛ z 4633 ⊹ d3 ⊛ z 3 ⊛ z 6 ⊛ z 548)),
(4745, z 9 ⊛ z 126 ⊝ z 4744 ⊝ z 9 ⊛ z 4740 ⊝ z 10 ⊛ z 145 ⊝ z 6 ⊛ z 10 ⊛ z 118 ⊛ z 548),
(4746, z 11 ⊛ z 39 ⊛ z 43 ⊛ z 4662 ⊹ z 12 ⊛ z 40 ⊛ z 90 ⊛ z 551 ⊹ qt 2 ⊛ rf ⊛ z 11 ⊛ z 94 ⊛ z 4737
    ⊝ z 11 ⊛ z 39 ⊛ z 90 ⊛ z 551 ⊝ z 11 ⊛ z 40 ⊛ z 43 ⊛ z 4655 ⊝ z 11 ⊛ z 40 ⊛ z 94 ⊛ z 551 ⊝ z 12
    ⊛ z 39 ⊛ z 43 ⊛ z 4655 ⊝ z 12 ⊛ z 39 ⊛ z 94 ⊛ z 551 ⊝ z 12 ⊛ z 40 ⊛ z 43 ⊛ z 4662 ⊝ qt 2 ⊛ rf
    ⊛ z 11 ⊛ z 90 ⊛ z 4742 ⊝ qt 2 ⊛ rf ⊛ z 12 ⊛ z 90 ⊛ z 4737 ⊝ qt 2 ⊛ rf ⊛ z 12 ⊛ z 94 ⊛ z 4742),
(4747, z 6 ⊛ z 4739 ⊹ z 257 ⊛ z 4630 ⊹ z 5 ⊛ z 262 ⊛ z 548 ⊹ z 23 ⊛ (z 4741 ⊹ z 4743) ⊝ z 259 ⊛ z
    4626 ⊝ z 25 ⊛ (z 4745 ⊹ z 4746)),
(4748, d2 ⊛ z 4643 ⊹ z 9 ⊛ z 147 ⊹ d1 ⊛ z 10 ⊛ z 4603),
(4749, z 40 ⊛ z 4643 ⊹ qt 2 ⊛ rf ⊛ z 77 ⊛ z 4742),
(4750, neg d1 ⊛ z 4607 ⊝ d3 ⊛ z 4643),
(4751, z 39 ⊛ z 4643 ⊹ qt 2 ⊛ rf ⊛ z 77 ⊛ z 4737),
(4752, d3 ⊛ z 4637 ⊝ d2 ⊛ z 4625),
(4753, z 4752 ⊹ d1 ⊛ z 9 ⊛ z 4603 ⊝ z 10 ⊛ z 147),
(4754, z 11 ⊛ z 39 ⊛ z 4659 ⊹ z 12 ⊛ z 40 ⊛ z 92 ⊛ z 551 ⊹ qt 2 ⊛ rf ⊛ z 11 ⊛ z 97 ⊛ z 4737 ⊝ z 11
    ⊛ z 40 ⊛ z 4652 ⊝ z 12 ⊛ z 39 ⊛ z 4652 ⊝ z 12 ⊛ z 40 ⊛ z 4659 ⊝ z 11 ⊛ z 39 ⊛ z 92 ⊛ z 551 ⊝ z
    11 ⊛ z 40 ⊛ z 97 ⊛ z 551 ⊝ z 12 ⊛ z 39 ⊛ z 97 ⊛ z 551 ⊝ qt 2 ⊛ rf ⊛ z 11 ⊛ z 92 ⊛ z 4742 ⊝ qt
    2 ⊛ rf ⊛ z 12 ⊛ z 92 ⊛ z 4737 ⊝ qt 2 ⊛ rf ⊛ z 12 ⊛ z 97 ⊛ z 4742),
(4755, z 256 ⊛ z 4630 ⊹ z 5 ⊛ z 263 ⊛ z 548 ⊹ z 23 ⊛ (z 4748 ⊹ z 4749) ⊹ z 6 ⊛ (z 4750 ⊝ z 4751) ⊝
    z 261 ⊛ z 4626 ⊝ z 25 ⊛ (z 4753 ⊹ z 4754)),
(4756, d2 ⊛ z 4644 ⊹ z 9 ⊛ z 143),
(4757, z 40 ⊛ z 4644 ⊹ qt 2 ⊛ rf ⊛ z 76 ⊛ z 4742),
(4758, n 2 ⊛ d1 ⊛ z 4608 ⊝ d3 ⊛ z 4644),
(4759, z 39 ⊛ z 4644 ⊹ qt 2 ⊛ rf ⊛ z 76 ⊛ z 4737),
(4760, d3 ⊛ z 4638 ⊝ d2 ⊛ z 4627),
(4761, z 11 ⊛ z 39 ⊛ z 4660 ⊹ z 12 ⊛ z 40 ⊛ z 91 ⊛ z 551 ⊹ qt 2 ⊛ rf ⊛ z 11 ⊛ z 95 ⊛ z 4737 ⊝ z 11
    ⊛ z 40 ⊛ z 4653 ⊝ z 12 ⊛ z 39 ⊛ z 4653 ⊝ z 12 ⊛ z 40 ⊛ z 4660 ⊝ z 11 ⊛ z 39 ⊛ z 91 ⊛ z 551 ⊝ z
    11 ⊛ z 40 ⊛ z 95 ⊛ z 551 ⊝ z 12 ⊛ z 39 ⊛ z 95 ⊛ z 551 ⊝ qt 2 ⊛ rf ⊛ z 11 ⊛ z 91 ⊛ z 4742 ⊝ qt
    2 ⊛ rf ⊛ z 12 ⊛ z 91 ⊛ z 4737 ⊝ qt 2 ⊛ rf ⊛ z 12 ⊛ z 95 ⊛ z 4742),
(4762, z 255 ⊛ z 4630 ⊹ z 5 ⊛ z 264 ⊛ z 548 ⊹ z 23 ⊛ (z 4756 ⊹ z 4757) ⊹ z 6 ⊛ (z 4758 ⊝ z 4759) ⊝
    z 260 ⊛ z 4626 ⊝ z 25 ⊛ (z 4760 ⊹ z 4761 ⊝ z 10 ⊛ z 143)),
(4763, z 254 ⊛ z 4630 ⊹ qt 2 ⊛ rf ⊛ z 23 ⊛ z 83 ⊛ z 4742 ⊝ z 5 ⊛ z 250 ⊛ z 548 ⊝ qt 2 ⊛ rf ⊛ z 6 ⊛
    z 83 ⊛ z 4737),
(4764, d3 ⊛ z 4639 ⊝ d2 ⊛ z 4632),
(4765, z 11 ⊛ z 39 ⊛ z 4661 ⊹ z 12 ⊛ z 40 ⊛ z 93 ⊛ z 551 ⊹ qt 2 ⊛ rf ⊛ z 11 ⊛ z 96 ⊛ z 4737 ⊝ z 11
    ⊛ z 40 ⊛ z 4654 ⊝ z 12 ⊛ z 39 ⊛ z 4654 ⊝ z 12 ⊛ z 40 ⊛ z 4661 ⊝ z 11 ⊛ z 39 ⊛ z 93 ⊛ z 551 ⊝ z
    11 ⊛ z 40 ⊛ z 96 ⊛ z 551 ⊝ z 12 ⊛ z 39 ⊛ z 96 ⊛ z 551 ⊝ qt 2 ⊛ rf ⊛ z 11 ⊛ z 93 ⊛ z 4742 ⊝ qt
    2 ⊛ rf ⊛ z 12 ⊛ z 93 ⊛ z 4737 ⊝ qt 2 ⊛ rf ⊛ z 12 ⊛ z 96 ⊛ z 4742),
(4766, z 258 ⊛ z 4626 ⊹ z 25 ⊛ (z 4764 ⊹ z 4765)),
(4767, z 4728 ⊛ u1 ⊹ z 4733 ⊛ u2 ⊹ z 4747 ⊛ u3 ⊹ z 4755 ⊛ u4 ⊹ z 4762 ⊛ u5 ⊹ z 4763 ⊛ u8 ⊹ z 543 ⊛
    z 578 ⊹ z 548 ⊛ z 594 ⊹ z 551 ⊛ z 586 ⊝ z 4766 ⊛ u7 ⊝ z 619 ⊝ z 540 ⊛ z 573 ⊝ z 546 ⊛ z 616),
(4768, rr ⊛ z 4607 ⊛ u4 ⊹ z 2 ⊛ z 546 ⊛ u1 ⊹ z 1 ⊛ z 543 ⊛ q3p ⊹ z 2 ⊛ z 540 ⊛ q3p ⊹ rr ⊛ z 548 ⊛
    z 275 ⊝ n 2 ⊛ rr ⊛ z 4608 ⊛ u5 ⊝ z 1 ⊛ z 546 ⊛ u2 ⊝ z 546 ⊛ z 552),
(4769, z 25 ⊛ z 4734 ⊹ z 33 ⊛ z 4626),
(4770, (n 2 ⊛ z 35 ⊛ z 4769 ⊝ z 416 ⊛ z 4736) ⊘ hpow (z 35) 3),
(4771, (z 4736 ⊛ (z 25 ⊛ z 36 ⊝ n 2 ⊛ z 33 ⊛ z 420) ⊘ hpow (z 35) 1 ⊝ z 36 ⊛ (n 2 ⊛ z 36 ⊛ z 4626
    ⊝ n 2 ⊛ z 420 ⊛ z 4734 ⊝ z 33 ⊛ z 4770)) ⊘ pow (z 36) 3)]

/-- _mooreriderlean2012.py:10163-10285 -/
def part87 : List (ℕ × E) := [
(4772, (z 34 ⊛ z 36 ⊛ z 4770 ⊹ n 2 ⊛ z 36 ⊛ z 420 ⊛ z 4735 ⊝ n 2 ⊛ z 34 ⊛ z 420 ⊛ z 4736 ⊘ hpow (z
    35) 1) ⊘ pow (z 36) 3),
(4773, z 443 ⊛ z 4633 ⊹ z 3 ⊛ z 6 ⊛ z 434 ⊛ z 548 ⊝ qt 2 ⊛ rf ⊛ z 28 ⊛ z 4771 ⊝ qt 2 ⊛ rf ⊛ z 32 ⊛
    z 4772),
(4774, z 25 ⊛ z 4735 ⊹ z 34 ⊛ z 4626),
(4775, (n 2 ⊛ z 35 ⊛ z 4774 ⊝ z 412 ⊛ z 4736) ⊘ hpow (z 35) 3),
(4776, (z 33 ⊛ z 36 ⊛ z 4775 ⊹ n 2 ⊛ z 36 ⊛ z 418 ⊛ z 4734 ⊝ n 2 ⊛ z 33 ⊛ z 418 ⊛ z 4736 ⊘ hpow (z
    35) 1) ⊘ pow (z 36) 3),
(4777, (z 4736 ⊛ (z 25 ⊛ z 36 ⊝ n 2 ⊛ z 34 ⊛ z 418) ⊘ hpow (z 35) 1 ⊝ z 36 ⊛ (n 2 ⊛ z 36 ⊛ z 4626
    ⊝ n 2 ⊛ z 418 ⊛ z 4735 ⊝ z 34 ⊛ z 4775)) ⊘ pow (z 36) 3),
(4778, neg (z 444) ⊛ z 4633 ⊝ qt 2 ⊛ rf ⊛ z 28 ⊛ z 4776 ⊝ qt 2 ⊛ rf ⊛ z 32 ⊛ z 4777 ⊝ z 3 ⊛ z 6 ⊛
    z 432 ⊛ z 548),
(4779, n 2 ⊛ z 23 ⊛ z 4735 ⊹ n 2 ⊛ z 34 ⊛ z 4630 ⊝ n 2 ⊛ z 6 ⊛ z 4734 ⊝ n 2 ⊛ z 5 ⊛ z 33 ⊛ z 548),
(4780, (n 2 ⊛ z 35 ⊛ z 4779 ⊝ z 411 ⊛ z 4736) ⊘ hpow (z 35) 3),
(4781, (n 2 ⊛ z 33 ⊛ z 421 ⊛ z 4736 ⊘ hpow (z 35) 1 ⊝ z 36 ⊛ (z 33 ⊛ z 4780 ⊹ n 2 ⊛ z 421 ⊛ z 4734
    ⊹ n 4 ⊛ z 5 ⊛ z 36 ⊛ z 548 ⊝ n 2 ⊛ z 6 ⊛ z 4736 ⊘ hpow (z 35) 1)) ⊘ pow (z 36) 3),
(4782, (n 2 ⊛ z 4736 ⊛ (z 23 ⊛ z 36 ⊝ z 34 ⊛ z 421) ⊘ hpow (z 35) 1 ⊝ z 36 ⊛ (n 4 ⊛ z 36 ⊛ z 4630
    ⊝ n 2 ⊛ z 421 ⊛ z 4735 ⊝ z 34 ⊛ z 4780)) ⊘ pow (z 36) 3),
(4783, qt 1 ⊛ rf ⊛ z 28 ⊛ z 4781 ⊝ qt 2 ⊛ z 446 ⊛ z 4633 ⊝ qt 1 ⊛ rf ⊛ z 32 ⊛ z 4782 ⊝ qt 2 ⊛ z 3
    ⊛ z 6 ⊛ z 430 ⊛ z 548),
(4784, z 3 ⊛ z 5 ⊛ z 4773 ⊹ d1 ⊛ z 4 ⊛ z 5 ⊛ z 548 ⊹ z 4 ⊛ z 6 ⊛ z 448 ⊛ z 548 ⊹ z 449 ⊛ (z 3 ⊛ z
    9 ⊹ z 4 ⊛ z 4628) ⊹ z 453 ⊛ (z 3 ⊛ z 4628 ⊝ z 4 ⊛ z 9) ⊹ z 4778 ⊛ (z 3 ⊛ z 24 ⊝ z 4 ⊛ z 10) ⊹
    qt 2 ⊛ rf ⊛ z 4737 ⊛ (z 3 ⊛ z 10 ⊹ z 4 ⊛ z 24) ⊝ z 3 ⊛ z 6 ⊛ z 455 ⊛ z 548 ⊝ qt 2 ⊛ rf ⊛ z 4 ⊛
    z 5 ⊛ z 4742 ⊝ z 4783 ⊛ (z 3 ⊛ z 26 ⊹ z 4 ⊛ z 9) ⊝ z 451 ⊛ (z 3 ⊛ z 4622 ⊝ z 4 ⊛ z 10)),
(4785, z 5 ⊛ z 4623 ⊝ z 6 ⊛ z 29 ⊛ z 548),
(4786, z 33 ⊛ z 4785 ⊹ z 410 ⊛ z 4734),
(4787, (n 2 ⊛ z 35 ⊛ z 4786 ⊝ z 415 ⊛ z 4736) ⊘ hpow (z 35) 3),
(4788, (z 34 ⊛ z 36 ⊛ z 4787 ⊹ n 2 ⊛ z 36 ⊛ z 417 ⊛ z 4735 ⊝ n 2 ⊛ z 34 ⊛ z 417 ⊛ z 4736 ⊘ hpow (z
    35) 1) ⊘ pow (z 36) 3),
(4789, (n 2 ⊛ z 33 ⊛ z 417 ⊛ z 4736 ⊘ hpow (z 35) 1 ⊹ z 36 ⊛ (n 2 ⊛ z 36 ⊛ z 4785 ⊝ n 2 ⊛ z 417 ⊛
    z 4734 ⊝ z 33 ⊛ z 4787 ⊝ z 410 ⊛ z 4736 ⊘ hpow (z 35) 1)) ⊘ pow (z 36) 3),
(4790, z 441 ⊛ z 4633 ⊹ qt 2 ⊛ rf ⊛ z 32 ⊛ z 4788 ⊝ qt 2 ⊛ rf ⊛ z 28 ⊛ z 4789 ⊝ z 3 ⊛ z 6 ⊛ z 429
    ⊛ z 548),
(4791, z 29 ⊛ z 4735 ⊹ z 34 ⊛ z 4623),
(4792, (n 2 ⊛ z 35 ⊛ z 4791 ⊝ z 414 ⊛ z 4736) ⊘ hpow (z 35) 3),
(4793, (z 33 ⊛ z 36 ⊛ z 4792 ⊹ n 2 ⊛ z 36 ⊛ z 419 ⊛ z 4734 ⊝ n 2 ⊛ z 33 ⊛ z 419 ⊛ z 4736 ⊘ hpow (z
    35) 1) ⊘ pow (z 36) 3),
(4794, (z 4736 ⊛ (z 29 ⊛ z 36 ⊝ n 2 ⊛ z 34 ⊛ z 419) ⊘ hpow (z 35) 1 ⊝ z 36 ⊛ (n 2 ⊛ z 36 ⊛ z 4623
    ⊝ n 2 ⊛ z 419 ⊛ z 4735 ⊝ z 34 ⊛ z 4792)) ⊘ pow (z 36) 3),
(4795, neg (z 445) ⊛ z 4633 ⊝ qt 2 ⊛ rf ⊛ z 28 ⊛ z 4793 ⊝ qt 2 ⊛ rf ⊛ z 32 ⊛ z 4794 ⊝ z 3 ⊛ z 6 ⊛
    z 433 ⊛ z 548),
(4796, n 2 ⊛ z 27 ⊛ z 4735 ⊹ n 2 ⊛ z 31 ⊛ z 4734 ⊹ n 2 ⊛ z 34 ⊛ z 4636 ⊝ n 2 ⊛ z 4 ⊛ z 6 ⊛ z 33 ⊛
    z 548),
(4797, (n 2 ⊛ z 35 ⊛ z 4796 ⊝ z 413 ⊛ z 4736) ⊘ hpow (z 35) 3),
(4798, (n 2 ⊛ z 4736 ⊛ (z 31 ⊛ z 36 ⊝ z 33 ⊛ z 422) ⊘ hpow (z 35) 1 ⊹ z 36 ⊛ (z 33 ⊛ z 4797 ⊹ n 2
    ⊛ z 422 ⊛ z 4734 ⊹ n 4 ⊛ z 4 ⊛ z 6 ⊛ z 36 ⊛ z 548)) ⊘ pow (z 36) 3),
(4799, (n 2 ⊛ z 4736 ⊛ (z 27 ⊛ z 36 ⊝ z 34 ⊛ z 422) ⊘ hpow (z 35) 1 ⊝ z 36 ⊛ (n 4 ⊛ z 36 ⊛ z 4636
    ⊝ n 2 ⊛ z 422 ⊛ z 4735 ⊝ z 34 ⊛ z 4797)) ⊘ pow (z 36) 3),
(4800, qt 2 ⊛ z 442 ⊛ z 4633 ⊝ qt 1 ⊛ rf ⊛ z 28 ⊛ z 4798 ⊝ qt 1 ⊛ rf ⊛ z 32 ⊛ z 4799 ⊝ qt 2 ⊛ z 3
    ⊛ z 6 ⊛ z 431 ⊛ z 548),
(4801, z 4790 ⊹ z 6 ⊛ z 10 ⊛ z 454 ⊹ d1 ⊛ z 3 ⊛ z 6 ⊛ z 548 ⊹ z 3 ⊛ z 5 ⊛ z 10 ⊛ z 449 ⊹ z 4 ⊛ z 5
    ⊛ z 9 ⊛ z 4778 ⊹ z 3 ⊛ z 6 ⊛ z 9 ⊛ z 449 ⊛ z 548 ⊹ z 4 ⊛ z 6 ⊛ z 10 ⊛ z 451 ⊛ z 548 ⊝ z 4 ⊛ z
    6 ⊛ z 4773 ⊝ z 6 ⊛ z 9 ⊛ z 452 ⊝ z 6 ⊛ z 9 ⊛ z 4795 ⊝ z 6 ⊛ z 10 ⊛ z 4800 ⊝ z 3 ⊛ z 5 ⊛ z 448
    ⊛ z 548 ⊝ z 4 ⊛ z 5 ⊛ z 9 ⊛ z 451 ⊝ z 4 ⊛ z 5 ⊛ z 10 ⊛ z 453 ⊝ z 4 ⊛ z 5 ⊛ z 10 ⊛ z 4783 ⊝ z 4
    ⊛ z 5 ⊛ z 455 ⊛ z 548 ⊝ z 5 ⊛ z 9 ⊛ z 454 ⊛ z 548 ⊝ z 5 ⊛ z 10 ⊛ z 452 ⊛ z 548 ⊝ qt 2 ⊛ rf ⊛ z
    3 ⊛ z 6 ⊛ z 4742 ⊝ z 4 ⊛ z 6 ⊛ z 9 ⊛ z 453 ⊛ z 548 ⊝ qt 2 ⊛ rf ⊛ z 3 ⊛ z 5 ⊛ z 9 ⊛ z 4737),
(4802, z 5 ⊛ z 9 ⊛ z 4800 ⊹ z 6 ⊛ z 10 ⊛ z 454 ⊛ z 548 ⊹ z 4778 ⊛ (z 3 ⊛ z 9 ⊝ z 4 ⊛ z 6 ⊛ z 10) ⊹
    qt 2 ⊛ rf ⊛ z 4737 ⊛ (z 4 ⊛ z 9 ⊹ z 3 ⊛ z 6 ⊛ z 10) ⊹ z 451 ⊛ (z 4 ⊛ z 6 ⊛ z 10 ⊝ z 3 ⊛ z 9 ⊝
    z 4 ⊛ z 5 ⊛ z 9 ⊛ z 548) ⊝ z 5 ⊛ z 9 ⊛ z 454 ⊝ z 5 ⊛ z 10 ⊛ z 452 ⊝ z 5 ⊛ z 10 ⊛ z 4795 ⊝ z 6
    ⊛ z 9 ⊛ z 452 ⊛ z 548 ⊝ z 4783 ⊛ (z 3 ⊛ z 10 ⊹ z 4 ⊛ z 6 ⊛ z 9) ⊝ z 453 ⊛ (z 3 ⊛ z 10 ⊹ z 4 ⊛
    z 6 ⊛ z 9 ⊹ z 4 ⊛ z 5 ⊛ z 10 ⊛ z 548) ⊝ z 449 ⊛ (z 4 ⊛ z 10 ⊝ z 3 ⊛ z 6 ⊛ z 9 ⊝ z 3 ⊛ z 5 ⊛ z
    10 ⊛ z 548)),
(4803, z 4784 ⊛ u4 ⊹ z 4801 ⊛ u5 ⊹ z 4802 ⊛ u7 ⊹ z 663 ⊹ z 548 ⊛ z 662),
(4804, z 27 ⊛ z 4726 ⊹ z 29 ⊛ z 4727 ⊹ z 233 ⊛ z 4636 ⊹ z 238 ⊛ z 4623 ⊹ z 4 ⊛ z 6 ⊛ z 122 ⊛ z 548
    ⊝ z 31 ⊛ z 4724),
(4805, z 27 ⊛ z 4731 ⊹ z 29 ⊛ z 4732 ⊹ z 234 ⊛ z 4636 ⊹ z 239 ⊛ z 4623 ⊹ z 4 ⊛ z 6 ⊛ z 125 ⊛ z 548
    ⊝ z 31 ⊛ z 4729),
(4806, z 257 ⊛ z 4636 ⊹ z 259 ⊛ z 4623 ⊹ z 4 ⊛ z 6 ⊛ z 262 ⊛ z 548 ⊹ z 27 ⊛ (z 4741 ⊹ z 4743) ⊹ z
    29 ⊛ (z 4745 ⊹ z 4746) ⊝ z 31 ⊛ z 4739),
(4807, z 256 ⊛ z 4636 ⊹ z 261 ⊛ z 4623 ⊹ z 4 ⊛ z 6 ⊛ z 263 ⊛ z 548 ⊹ z 27 ⊛ (z 4748 ⊹ z 4749) ⊹ z
    29 ⊛ (z 4753 ⊹ z 4754) ⊝ z 31 ⊛ (z 4750 ⊝ z 4751)),
(4808, z 255 ⊛ z 4636 ⊹ z 260 ⊛ z 4623 ⊹ z 4 ⊛ z 6 ⊛ z 264 ⊛ z 548 ⊹ z 27 ⊛ (z 4756 ⊹ z 4757) ⊹ z
    29 ⊛ (z 4760 ⊹ z 4761 ⊝ z 10 ⊛ z 143) ⊝ z 31 ⊛ (z 4758 ⊝ z 4759)),
(4809, z 258 ⊛ z 4623 ⊹ z 29 ⊛ (z 4764 ⊹ z 4765)),
(4810, z 254 ⊛ z 4636 ⊹ qt 2 ⊛ rf ⊛ z 27 ⊛ z 83 ⊛ z 4742 ⊹ qt 2 ⊛ rf ⊛ z 31 ⊛ z 83 ⊛ z 4737 ⊝ z 4
    ⊛ z 6 ⊛ z 250 ⊛ z 548),
(4811, z 4804 ⊛ u1 ⊹ z 4805 ⊛ u2 ⊹ z 4806 ⊛ u3 ⊹ z 4807 ⊛ u4 ⊹ z 4808 ⊛ u5 ⊹ z 4809 ⊛ u7 ⊹ z 4810
    ⊛ u8 ⊹ z 627 ⊹ z 543 ⊛ z 622 ⊹ z 548 ⊛ z 624 ⊹ z 551 ⊛ z 623 ⊝ z 540 ⊛ z 621 ⊝ z 546 ⊛ z 626),
(4812, (z 525 ⊛ z 4723 ⊹ z 478 ⊛ z 496 ⊛ z 4767 ⊝ z 511 ⊛ z 4768 ⊝ z 535 ⊛ z 4803 ⊝ z 478 ⊛ z 528
    ⊛ z 4811) ⊘ z 494),
(4813, (z 526 ⊛ z 4723 ⊹ z 532 ⊛ z 4811 ⊝ z 512 ⊛ z 4768 ⊝ z 527 ⊛ z 4767 ⊝ z 537 ⊛ z 4803) ⊘ z
    494),
(4814, (z 519 ⊛ z 4723 ⊹ z 487 ⊛ z 496 ⊛ z 4767 ⊝ z 504 ⊛ z 4768 ⊝ z 533 ⊛ z 4803 ⊝ z 487 ⊛ z 528
    ⊛ z 4811) ⊘ z 494),
(4815, (z 523 ⊛ z 4723 ⊹ z 482 ⊛ z 496 ⊛ z 4767 ⊝ z 509 ⊛ z 4768 ⊝ z 534 ⊛ z 4803 ⊝ z 482 ⊛ z 528
    ⊛ z 4811) ⊘ z 494),
(4816, z 4715 ⊹ z 940 ⊛ z 4812 ⊹ z 944 ⊛ z 4813 ⊹ z 946 ⊛ z 4814 ⊹ z 536 ⊛ z 941 ⊛ z 4803 ⊘ z 494
    ⊝ z 947 ⊛ z 4815),
(4817, z 75 ⊛ z 4642 ⊹ z 79 ⊛ z 4651 ⊹ z 93 ⊛ z 4658 ⊹ z 96 ⊛ z 4664 ⊹ ie11 ⊛ z 75 ⊛ z 4634 ⊹ ie31
    ⊛ z 75 ⊛ z 4640 ⊹ ie31 ⊛ z 79 ⊛ z 4634 ⊹ ie33 ⊛ z 79 ⊛ z 4640 ⊹ if11 ⊛ z 93 ⊛ z 4656 ⊹ if11 ⊛
    z 96 ⊛ z 4663 ⊹ me ⊛ z 161 ⊛ (z 4703 ⊹ z 9 ⊛ z 4701 ⊝ z 10 ⊛ z 4700) ⊹ mf ⊛ z 150 ⊛ (z 4707 ⊹
    z 9 ⊛ z 4701 ⊝ z 10 ⊛ z 4700)),
(4818, z 4817 ⊹ z 543 ⊛ z 4714 ⊹ z 548 ⊛ z 4712 ⊹ z 551 ⊛ z 4713 ⊝ z 540 ⊛ z 4710 ⊝ z 546 ⊛ z
    4711),
(4819, z 4818 ⊹ z 970 ⊛ z 4812 ⊹ z 971 ⊛ z 4814 ⊹ z 975 ⊛ z 4813 ⊹ z 536 ⊛ z 967 ⊛ z 4803 ⊘ z 494
    ⊝ z 972 ⊛ z 4815),
(4820, z 53 ⊛ (z 4612 ⊹ id22 ⊛ z 4609)),
(4821, z 4820 ⊹ z 542 ⊛ z 4714 ⊝ z 539 ⊛ z 4710 ⊝ z 545 ⊛ z 4711 ⊝ z 550 ⊛ z 4713),
(4822, z 4821 ⊹ z 955 ⊛ z 4812 ⊹ z 957 ⊛ z 4814 ⊹ z 961 ⊛ z 4813 ⊹ z 536 ⊛ z 954 ⊛ z 4803 ⊘ z 494
    ⊝ z 958 ⊛ z 4815),
(4823, z 98 ⊛ z 4672 ⊹ z 99 ⊛ z 4677 ⊹ ig11 ⊛ z 98 ⊛ z 4667 ⊹ ig22 ⊛ z 99 ⊛ z 4675 ⊹ ig31 ⊛ z 98 ⊛
    z 4670 ⊝ mg ⊛ (z 200 ⊛ z 4691 ⊹ z 201 ⊛ z 4693 ⊝ z 205 ⊛ z 4686)),
(4824, z 4823 ⊹ z 902 ⊛ z 4812 ⊹ z 906 ⊛ z 4814 ⊹ z 536 ⊛ z 903 ⊛ z 4803 ⊘ z 494 ⊝ z 907 ⊛ z 4815),
(4825, (z 1005 ⊛ z 4816 ⊹ z 1022 ⊛ z 4819 ⊝ z 1015 ⊛ z 4822 ⊝ z 1026 ⊛ z 4824) ⊘ z 1001),
(4826, ig11 ⊛ (n 2 ⊛ z 4078 ⊛ q9p ⊹ z 339)),
(4827, z 99 ⊛ z 852 ⊹ ig31 ⊛ z 98 ⊛ z 335 ⊝ ig22 ⊛ z 99 ⊛ z 336),
(4828, z 13 ⊛ z 18 ⊝ z 14 ⊛ z 20),
(4829, z 116 ⊛ q5p ⊹ z 117 ⊛ q4p ⊹ z 4828 ⊛ q9p ⊹ z 43 ⊛ z 108 ⊛ q3p ⊹ z 343),
(4830, z 98 ⊛ (ig11 ⊛ z 336 ⊝ z 852 ⊝ ig31 ⊛ z 334)),
(4831, ig31 ⊛ (n 2 ⊛ z 4078 ⊛ q9p ⊹ z 339)),
(4832, z 98 ⊛ z 853 ⊹ ig22 ⊛ z 99 ⊛ z 334 ⊝ z 99 ⊛ z 851 ⊝ ig11 ⊛ z 98 ⊛ z 335)]

/-- _mooreriderlean2012.py:10286-10417 -/
def part88 : List (ℕ × E) := [
(4833, l6 ⊛ z 4829 ⊹ z 200 ⊛ z 336 ⊝ z 99 ⊛ (z 201 ⊛ q9p ⊹ z 202 ⊛ q3p ⊹ z 203 ⊛ q4p ⊹ z 204 ⊛
    q5p) ⊝ z 201 ⊛ z 335),
(4834, l5 ⊛ z 4139 ⊝ l6 ⊛ (n 2 ⊛ z 4078 ⊛ q9p ⊹ z 339)),
(4835, z 98 ⊛ (z 201 ⊛ q9p ⊹ z 202 ⊛ q3p ⊹ z 203 ⊛ q4p ⊹ z 204 ⊛ q5p) ⊹ z 4834 ⊹ z 201 ⊛ z 334 ⊹ z
    205 ⊛ z 336),
(4836, z 98 ⊛ (z 197 ⊛ q3p ⊹ z 198 ⊛ q5p ⊹ z 199 ⊛ q4p ⊝ z 200 ⊛ q9p) ⊝ z 99 ⊛ (z 205 ⊛ q9p ⊹ z
    206 ⊛ q3p ⊹ z 207 ⊛ q4p ⊹ z 208 ⊛ q5p) ⊝ l5 ⊛ z 4829 ⊝ z 200 ⊛ z 334 ⊝ z 205 ⊛ z 335),
(4837, z 109 ⊛ z 4826 ⊹ z 109 ⊛ z 4827 ⊹ z 113 ⊛ z 4830 ⊹ z 117 ⊛ z 4831 ⊹ z 117 ⊛ z 4832 ⊹ ig22 ⊛
    z 113 ⊛ z 4829 ⊹ ig31 ⊛ z 109 ⊛ z 4139 ⊹ ig33 ⊛ z 117 ⊛ z 4139 ⊹ mg ⊛ (z 209 ⊛ z 4833 ⊹ z 212
    ⊛ z 4835 ⊹ z 215 ⊛ z 4836)),
(4838, mg ⊛ (z 182 ⊛ z 4833 ⊹ z 187 ⊛ z 4835 ⊹ z 192 ⊛ z 4836)),
(4839, z 110 ⊛ z 4826 ⊹ z 110 ⊛ z 4827 ⊹ z 112 ⊛ z 4830 ⊹ z 115 ⊛ z 4831 ⊹ z 115 ⊛ z 4832 ⊹ ig22 ⊛
    z 112 ⊛ z 4829 ⊹ ig31 ⊛ z 110 ⊛ z 4139 ⊹ ig33 ⊛ z 115 ⊛ z 4139 ⊹ mg ⊛ (z 211 ⊛ z 4833 ⊹ z 214
    ⊛ z 4835 ⊹ z 217 ⊛ z 4836)),
(4840, z 111 ⊛ z 4826 ⊹ z 111 ⊛ z 4827 ⊹ z 114 ⊛ z 4830 ⊹ z 116 ⊛ z 4831 ⊹ z 116 ⊛ z 4832 ⊹ ig22 ⊛
    z 114 ⊛ z 4829 ⊹ ig31 ⊛ z 111 ⊛ z 4139 ⊹ ig33 ⊛ z 116 ⊛ z 4139 ⊹ mg ⊛ (z 210 ⊛ z 4833 ⊹ z 213
    ⊛ z 4835 ⊹ z 216 ⊛ z 4836)),
(4841, mg ⊛ (z 183 ⊛ z 4833 ⊹ z 188 ⊛ z 4835 ⊹ z 193 ⊛ z 4836)),
(4842, z 4837 ⊹ z 538 ⊛ z 4838 ⊹ z 544 ⊛ z 4839 ⊹ z 547 ⊛ z 4840 ⊝ z 541 ⊛ z 4841),
(4843, c9 ⊛ (z 694 ⊝ z 13 ⊛ z 670 ⊝ z 14 ⊛ z 672)),
(4844, z 543 ⊛ z 4841 ⊹ z 548 ⊛ z 4840 ⊝ z 540 ⊛ z 4838 ⊝ z 546 ⊛ z 4839),
(4845, c9 ⊛ (z 700 ⊝ z 13 ⊛ z 676 ⊝ z 14 ⊛ z 678)),
(4846, z 542 ⊛ z 4841 ⊝ z 539 ⊛ z 4838 ⊝ z 545 ⊛ z 4839),
(4847, c9 ⊛ (z 697 ⊹ z 13 ⊛ z 673 ⊝ z 14 ⊛ z 675)),
(4848, z 98 ⊛ z 4826 ⊹ z 98 ⊛ z 4827 ⊹ z 99 ⊛ z 4830 ⊹ ig22 ⊛ z 99 ⊛ z 4829 ⊹ ig31 ⊛ z 98 ⊛ z 4139
    ⊝ mg ⊛ (z 200 ⊛ z 4835 ⊹ z 201 ⊛ z 4836 ⊝ z 205 ⊛ z 4833)),
(4849, (z 1005 ⊛ (z 4843 ⊹ z 4842) ⊹ z 1022 ⊛ (z 4845 ⊹ z 4844) ⊹ z 1015 ⊛ (z 4847 ⊝ z 4846) ⊝ z
    1026 ⊛ (c9 ⊛ z 98 ⊹ z 4848)) ⊘ z 1001),
(4850, z 963 ⊛ z 1702 ⊹ z 973 ⊛ z 2032 ⊝ z 960 ⊛ z 2038 ⊝ z 977 ⊛ z 1703),
(4851, z 963 ⊛ z 1717 ⊹ z 979 ⊛ z 2032 ⊝ z 965 ⊛ z 2038 ⊝ z 977 ⊛ z 1720),
(4852, z 983 ⊛ z 4850 ⊹ z 1007 ⊛ z 1691 ⊝ z 905 ⊛ z 4851 ⊝ z 981 ⊛ z 1723 ⊝ z 1004 ⊛ z 2039),
(4853, z 983 ⊛ z 2035 ⊹ z 993 ⊛ z 1691 ⊝ z 905 ⊛ z 2042 ⊝ z 981 ⊛ z 1985 ⊝ z 999 ⊛ z 2039),
(4854, z 949 ⊛ z 1702 ⊹ z 973 ⊛ z 2030 ⊝ z 945 ⊛ z 2038 ⊝ z 977 ⊛ z 1980),
(4855, z 949 ⊛ z 1717 ⊹ z 979 ⊛ z 2030 ⊝ z 951 ⊛ z 2038 ⊝ z 977 ⊛ z 1983),
(4856, z 983 ⊛ z 4854 ⊹ z 1017 ⊛ z 1691 ⊝ z 905 ⊛ z 4855 ⊝ z 981 ⊛ z 2011 ⊝ z 1014 ⊛ z 2039),
(4857, z 979 ⊛ z 2035 ⊹ z 993 ⊛ z 1717 ⊝ z 973 ⊛ z 2042 ⊝ z 977 ⊛ z 1985 ⊝ z 991 ⊛ z 1702 ⊝ z 999
    ⊛ z 2038),
(4858, (z 2045 ⊛ (z 1008 ⊛ z 985 ⊹ z 1023 ⊛ z 987 ⊝ z 1018 ⊛ z 986 ⊝ z 1027 ⊛ z 988) ⊝ z 1001 ⊛ (z
    4852 ⊛ z 985 ⊹ z 4853 ⊛ z 987 ⊹ z 1018 ⊛ (z 2025 ⊝ z 2015) ⊝ z 1027 ⊛ z 2028 ⊝ z 4856 ⊛ z 986
    ⊝ z 4857 ⊛ z 988 ⊝ z 1008 ⊛ (z 1977 ⊝ z 1958) ⊝ z 1023 ⊛ (z 2008 ⊝ z 1989))) ⊘ pow (z 1001) 2),
(4859, z 963 ⊛ z 2106 ⊹ z 973 ⊛ z 2506 ⊝ z 960 ⊛ z 2513 ⊝ z 977 ⊛ z 2107),
(4860, z 963 ⊛ z 2134 ⊹ z 979 ⊛ z 2506 ⊝ z 965 ⊛ z 2513 ⊝ z 977 ⊛ z 2137),
(4861, z 983 ⊛ z 4859 ⊹ z 1007 ⊛ z 2078 ⊝ z 905 ⊛ z 4860 ⊝ z 981 ⊛ z 2140 ⊝ z 1004 ⊛ z 2515),
(4862, z 983 ⊛ z 2509 ⊹ z 993 ⊛ z 2078 ⊝ z 905 ⊛ z 2518 ⊝ z 981 ⊛ z 2443 ⊝ z 999 ⊛ z 2515),
(4863, z 949 ⊛ z 2106 ⊹ z 973 ⊛ z 2504 ⊝ z 945 ⊛ z 2513 ⊝ z 977 ⊛ z 2437),
(4864, z 949 ⊛ z 2134 ⊹ z 979 ⊛ z 2504 ⊝ z 951 ⊛ z 2513 ⊝ z 977 ⊛ z 2441),
(4865, z 983 ⊛ z 4863 ⊹ z 1017 ⊛ z 2078 ⊝ z 905 ⊛ z 4864 ⊝ z 981 ⊛ z 2470 ⊝ z 1014 ⊛ z 2515),
(4866, z 979 ⊛ z 2509 ⊹ z 993 ⊛ z 2134 ⊝ z 973 ⊛ z 2518 ⊝ z 977 ⊛ z 2443 ⊝ z 991 ⊛ z 2106 ⊝ z 999
    ⊛ z 2513),
(4867, (z 2521 ⊛ (z 1008 ⊛ z 985 ⊹ z 1023 ⊛ z 987 ⊝ z 1018 ⊛ z 986 ⊝ z 1027 ⊛ z 988) ⊝ z 1001 ⊛ (z
    4861 ⊛ z 985 ⊹ z 4862 ⊛ z 987 ⊹ z 1018 ⊛ (z 2495 ⊝ z 2474) ⊝ z 4865 ⊛ z 986 ⊝ z 4866 ⊛ z 988 ⊝
    z 1027 ⊛ (z 2499 ⊹ z 2498) ⊝ z 1008 ⊛ (z 2433 ⊝ z 2412) ⊝ z 1023 ⊛ (z 2467 ⊝ z 2447))) ⊘ pow
    (z 1001) 2),
(4868, z 963 ⊛ z 2571 ⊹ z 973 ⊛ z 2961 ⊝ z 960 ⊛ z 2968 ⊝ z 977 ⊛ z 2572),
(4869, z 963 ⊛ z 2596 ⊹ z 979 ⊛ z 2961 ⊝ z 965 ⊛ z 2968 ⊝ z 977 ⊛ z 2599),
(4870, z 983 ⊛ z 4868 ⊹ z 1007 ⊛ z 2549 ⊝ z 905 ⊛ z 4869 ⊝ z 981 ⊛ z 2602 ⊝ z 1004 ⊛ z 2970),
(4871, z 983 ⊛ z 2964 ⊹ z 993 ⊛ z 2549 ⊝ z 905 ⊛ z 2973 ⊝ z 981 ⊛ z 2896 ⊝ z 999 ⊛ z 2970),
(4872, z 949 ⊛ z 2571 ⊹ z 973 ⊛ z 2959 ⊝ z 945 ⊛ z 2968 ⊝ z 977 ⊛ z 2890),
(4873, z 949 ⊛ z 2596 ⊹ z 979 ⊛ z 2959 ⊝ z 951 ⊛ z 2968 ⊝ z 977 ⊛ z 2894),
(4874, z 983 ⊛ z 4872 ⊹ z 1017 ⊛ z 2549 ⊝ z 905 ⊛ z 4873 ⊝ z 981 ⊛ z 2923 ⊝ z 1014 ⊛ z 2970),
(4875, z 979 ⊛ z 2964 ⊹ z 993 ⊛ z 2596 ⊝ z 973 ⊛ z 2973 ⊝ z 977 ⊛ z 2896 ⊝ z 991 ⊛ z 2571 ⊝ z 999
    ⊛ z 2968),
(4876, (z 2976 ⊛ (z 1008 ⊛ z 985 ⊹ z 1023 ⊛ z 987 ⊝ z 1018 ⊛ z 986 ⊝ z 1027 ⊛ z 988) ⊝ z 1001 ⊛ (z
    4870 ⊛ z 985 ⊹ z 4871 ⊛ z 987 ⊹ z 1018 ⊛ (z 2946 ⊝ z 2927) ⊝ z 4874 ⊛ z 986 ⊝ z 4875 ⊛ z 988 ⊝
    z 1027 ⊛ (z 2950 ⊹ z 2949) ⊝ z 1008 ⊛ (z 2886 ⊝ z 2866) ⊝ z 1023 ⊛ (z 2920 ⊝ z 2900))) ⊘ pow
    (z 1001) 2),
(4877, z 963 ⊛ z 2985 ⊹ z 973 ⊛ z 3317 ⊝ z 960 ⊛ z 3323 ⊝ z 977 ⊛ z 2986),
(4878, z 963 ⊛ z 2999 ⊹ z 979 ⊛ z 3317 ⊝ z 965 ⊛ z 3323 ⊝ z 977 ⊛ z 3002),
(4879, z 983 ⊛ z 4877 ⊹ z 1007 ⊛ z 2978 ⊝ z 905 ⊛ z 4878 ⊝ z 981 ⊛ z 3005 ⊝ z 1004 ⊛ z 3324),
(4880, z 983 ⊛ z 3320 ⊹ z 993 ⊛ z 2978 ⊝ z 905 ⊛ z 3327 ⊝ z 981 ⊛ z 3267 ⊝ z 999 ⊛ z 3324),
(4881, z 949 ⊛ z 2985 ⊹ z 973 ⊛ z 3315 ⊝ z 945 ⊛ z 3323 ⊝ z 977 ⊛ z 3262),
(4882, z 949 ⊛ z 2999 ⊹ z 979 ⊛ z 3315 ⊝ z 951 ⊛ z 3323 ⊝ z 977 ⊛ z 3265),
(4883, z 983 ⊛ z 4881 ⊹ z 1017 ⊛ z 2978 ⊝ z 905 ⊛ z 4882 ⊝ z 981 ⊛ z 3293 ⊝ z 1014 ⊛ z 3324),
(4884, z 979 ⊛ z 3320 ⊹ z 993 ⊛ z 2999 ⊝ z 973 ⊛ z 3327 ⊝ z 977 ⊛ z 3267 ⊝ z 991 ⊛ z 2985 ⊝ z 999
    ⊛ z 3323),
(4885, (z 3330 ⊛ (z 1008 ⊛ z 985 ⊹ z 1023 ⊛ z 987 ⊝ z 1018 ⊛ z 986 ⊝ z 1027 ⊛ z 988) ⊝ z 1001 ⊛ (z
    4879 ⊛ z 985 ⊹ z 4880 ⊛ z 987 ⊹ z 1018 ⊛ (z 3307 ⊝ z 3297) ⊝ z 1027 ⊛ z 3310 ⊝ z 4883 ⊛ z 986
    ⊝ z 4884 ⊛ z 988 ⊝ z 1008 ⊛ (z 3259 ⊝ z 3240) ⊝ z 1023 ⊛ (z 3290 ⊝ z 3271))) ⊘ pow (z 1001) 2),
(4886, z 963 ⊛ z 3345 ⊹ z 973 ⊛ z 3704 ⊝ z 960 ⊛ z 3711 ⊝ z 977 ⊛ z 3346),
(4887, z 963 ⊛ z 3370 ⊹ z 979 ⊛ z 3704 ⊝ z 965 ⊛ z 3711 ⊝ z 977 ⊛ z 3373),
(4888, z 983 ⊛ z 4886 ⊹ z 1007 ⊛ z 3332 ⊝ z 905 ⊛ z 4887 ⊝ z 981 ⊛ z 3376 ⊝ z 1004 ⊛ z 3712),
(4889, z 983 ⊛ z 3707 ⊹ z 993 ⊛ z 3332 ⊝ z 905 ⊛ z 3715 ⊝ z 981 ⊛ z 3648 ⊝ z 999 ⊛ z 3712),
(4890, z 949 ⊛ z 3345 ⊹ z 973 ⊛ z 3702 ⊝ z 945 ⊛ z 3711 ⊝ z 977 ⊛ z 3642),
(4891, z 949 ⊛ z 3370 ⊹ z 979 ⊛ z 3702 ⊝ z 951 ⊛ z 3711 ⊝ z 977 ⊛ z 3646),
(4892, z 983 ⊛ z 4890 ⊹ z 1017 ⊛ z 3332 ⊝ z 905 ⊛ z 4891 ⊝ z 981 ⊛ z 3674 ⊝ z 1014 ⊛ z 3712),
(4893, z 979 ⊛ z 3707 ⊹ z 993 ⊛ z 3370 ⊝ z 973 ⊛ z 3715 ⊝ z 977 ⊛ z 3648 ⊝ z 991 ⊛ z 3345 ⊝ z 999
    ⊛ z 3711),
(4894, (z 3718 ⊛ (z 1008 ⊛ z 985 ⊹ z 1023 ⊛ z 987 ⊝ z 1018 ⊛ z 986 ⊝ z 1027 ⊛ z 988) ⊝ z 1001 ⊛ (z
    4888 ⊛ z 985 ⊹ z 4889 ⊛ z 987 ⊹ z 1018 ⊛ (z 3694 ⊝ z 3678) ⊝ z 1027 ⊛ z 3697 ⊝ z 4892 ⊛ z 986
    ⊝ z 4893 ⊛ z 988 ⊝ z 1008 ⊛ (z 3639 ⊝ z 3619) ⊝ z 1023 ⊛ (z 3671 ⊝ z 3652))) ⊘ pow (z 1001) 2),
(4895, z 963 ⊛ z 3727 ⊹ z 973 ⊛ z 4061 ⊝ z 960 ⊛ z 4068 ⊝ z 977 ⊛ z 3728),
(4896, z 963 ⊛ z 3746 ⊹ z 979 ⊛ z 4061 ⊝ z 965 ⊛ z 4068 ⊝ z 977 ⊛ z 3749),
(4897, z 983 ⊛ z 4895 ⊹ z 1007 ⊛ z 3720 ⊝ z 905 ⊛ z 4896 ⊝ z 981 ⊛ z 3752 ⊝ z 1004 ⊛ z 4069),
(4898, z 983 ⊛ z 4064 ⊹ z 993 ⊛ z 3720 ⊝ z 905 ⊛ z 4072 ⊝ z 981 ⊛ z 4011 ⊝ z 999 ⊛ z 4069),
(4899, z 949 ⊛ z 3727 ⊹ z 973 ⊛ z 4059 ⊝ z 945 ⊛ z 4068 ⊝ z 977 ⊛ z 4005),
(4900, z 949 ⊛ z 3746 ⊹ z 979 ⊛ z 4059 ⊝ z 951 ⊛ z 4068 ⊝ z 977 ⊛ z 4009),
(4901, z 983 ⊛ z 4899 ⊹ z 1017 ⊛ z 3720 ⊝ z 905 ⊛ z 4900 ⊝ z 981 ⊛ z 4037 ⊝ z 1014 ⊛ z 4069),
(4902, z 979 ⊛ z 4064 ⊹ z 993 ⊛ z 3746 ⊝ z 973 ⊛ z 4072 ⊝ z 977 ⊛ z 4011 ⊝ z 991 ⊛ z 3727 ⊝ z 999
    ⊛ z 4068),
(4903, (z 4075 ⊛ (z 1008 ⊛ z 985 ⊹ z 1023 ⊛ z 987 ⊝ z 1018 ⊛ z 986 ⊝ z 1027 ⊛ z 988) ⊝ z 1001 ⊛ (z
    4897 ⊛ z 985 ⊹ z 4898 ⊛ z 987 ⊹ z 1018 ⊛ (z 4051 ⊝ z 4041) ⊝ z 1027 ⊛ z 4054 ⊝ z 4901 ⊛ z 986
    ⊝ z 4902 ⊛ z 988 ⊝ z 1008 ⊛ (z 4002 ⊝ z 3983) ⊝ z 1023 ⊛ (z 4034 ⊝ z 4015))) ⊘ pow (z 1001) 2),
(4904, z 963 ⊛ z 4109 ⊹ z 973 ⊛ z 4212 ⊝ z 960 ⊛ z 4218 ⊝ z 977 ⊛ z 4110),
(4905, z 963 ⊛ z 4124 ⊹ z 979 ⊛ z 4212 ⊝ z 965 ⊛ z 4218 ⊝ z 977 ⊛ z 4126),
(4906, z 983 ⊛ z 4904 ⊹ z 1007 ⊛ z 4096 ⊝ n 2 ⊛ z 1006 ⊛ z 4120 ⊝ z 905 ⊛ z 4905 ⊝ z 981 ⊛ z 4129
    ⊝ z 1004 ⊛ z 4220),
(4907, z 983 ⊛ z 4215 ⊹ z 993 ⊛ z 4096 ⊝ n 2 ⊛ z 991 ⊛ z 4120 ⊝ z 905 ⊛ z 4223 ⊝ z 981 ⊛ z 4184 ⊝
    z 999 ⊛ z 4220)]

/-- _mooreriderlean2012.py:10418-10555 -/
def part89 : List (ℕ × E) := [
(4908, z 949 ⊛ z 4109 ⊹ z 973 ⊛ z 4210 ⊝ z 945 ⊛ z 4218 ⊝ z 977 ⊛ z 4180),
(4909, z 949 ⊛ z 4124 ⊹ z 979 ⊛ z 4210 ⊝ z 951 ⊛ z 4218 ⊝ z 977 ⊛ z 4182),
(4910, z 983 ⊛ z 4908 ⊹ z 1017 ⊛ z 4096 ⊝ n 2 ⊛ z 1016 ⊛ z 4120 ⊝ z 905 ⊛ z 4909 ⊝ z 981 ⊛ z 4194
    ⊝ z 1014 ⊛ z 4220),
(4911, z 979 ⊛ z 4215 ⊹ z 993 ⊛ z 4124 ⊝ z 973 ⊛ z 4223 ⊝ z 977 ⊛ z 4184 ⊝ z 991 ⊛ z 4109 ⊝ z 999
    ⊛ z 4218),
(4912, (z 4226 ⊛ (z 1008 ⊛ z 985 ⊹ z 1023 ⊛ z 987 ⊝ z 1018 ⊛ z 986 ⊝ z 1027 ⊛ z 988) ⊹ z 1001 ⊛ (z
    4910 ⊛ z 986 ⊹ z 4911 ⊛ z 988 ⊹ z 1008 ⊛ (z 4177 ⊝ z 4171) ⊹ z 1023 ⊛ (z 4191 ⊝ z 4187) ⊝ z
    4906 ⊛ z 985 ⊝ z 4907 ⊛ z 987 ⊝ z 1018 ⊛ (z 4201 ⊝ z 4197) ⊝ z 1027 ⊛ (z 4205 ⊝ z 4204))) ⊘
    pow (z 1001) 2),
(4913, (z 1008 ⊛ z 4462 ⊹ z 1023 ⊛ z 4465 ⊝ z 1018 ⊛ z 4468 ⊝ z 1027 ⊛ z 4470) ⊘ z 1001),
(4914, (z 1008 ⊛ z 4591 ⊹ z 1023 ⊛ z 4594 ⊝ z 1018 ⊛ z 4597 ⊝ z 1027 ⊛ z 4599) ⊘ z 1001),
(4915, (z 1008 ⊛ z 4816 ⊹ z 1023 ⊛ z 4819 ⊝ z 1018 ⊛ z 4822 ⊝ z 1027 ⊛ z 4824) ⊘ z 1001),
(4916, (z 1008 ⊛ (z 4843 ⊹ z 4842) ⊹ z 1023 ⊛ (z 4845 ⊹ z 4844) ⊹ z 1018 ⊛ (z 4847 ⊝ z 4846) ⊝ z
    1027 ⊛ (c9 ⊛ z 98 ⊹ z 4848)) ⊘ z 1001),
(4917, z 963 ⊛ z 1713 ⊹ z 978 ⊛ z 2032 ⊝ z 964 ⊛ z 2038 ⊝ z 977 ⊛ z 1701),
(4918, z 982 ⊛ z 4850 ⊹ z 1007 ⊛ z 1722 ⊝ z 905 ⊛ z 4917 ⊝ z 981 ⊛ z 1714 ⊝ z 1003 ⊛ z 2039),
(4919, z 982 ⊛ z 2035 ⊹ z 993 ⊛ z 1722 ⊝ z 905 ⊛ z 2033 ⊝ z 981 ⊛ z 1981 ⊝ z 997 ⊛ z 2039),
(4920, z 949 ⊛ z 1713 ⊹ z 978 ⊛ z 2030 ⊝ z 950 ⊛ z 2038 ⊝ z 977 ⊛ z 1979),
(4921, z 982 ⊛ z 4854 ⊹ z 1017 ⊛ z 1722 ⊝ z 905 ⊛ z 4920 ⊝ z 981 ⊛ z 2009 ⊝ z 1013 ⊛ z 2039),
(4922, z 978 ⊛ z 2035 ⊹ z 993 ⊛ z 1713 ⊝ z 973 ⊛ z 2033 ⊝ z 977 ⊛ z 1981 ⊝ z 989 ⊛ z 1702 ⊝ z 997
    ⊛ z 2038),
(4923, (z 2045 ⊛ (z 1010 ⊛ z 985 ⊹ z 1024 ⊛ z 987 ⊝ z 1020 ⊛ z 986 ⊝ z 1028 ⊛ z 988) ⊝ z 1001 ⊛ (z
    4918 ⊛ z 985 ⊹ z 4919 ⊛ z 987 ⊹ z 1020 ⊛ (z 2025 ⊝ z 2015) ⊝ z 1028 ⊛ z 2028 ⊝ z 4921 ⊛ z 986
    ⊝ z 4922 ⊛ z 988 ⊝ z 1010 ⊛ (z 1977 ⊝ z 1958) ⊝ z 1024 ⊛ (z 2008 ⊝ z 1989))) ⊘ pow (z 1001) 2),
(4924, z 963 ⊛ z 2121 ⊹ z 978 ⊛ z 2506 ⊝ z 964 ⊛ z 2513 ⊝ z 977 ⊛ z 2103),
(4925, z 982 ⊛ z 4859 ⊹ z 1007 ⊛ z 2139 ⊝ z 905 ⊛ z 4924 ⊝ z 981 ⊛ z 2122 ⊝ z 1003 ⊛ z 2515),
(4926, z 982 ⊛ z 2509 ⊹ z 993 ⊛ z 2139 ⊝ z 905 ⊛ z 2507 ⊝ z 981 ⊛ z 2438 ⊝ z 997 ⊛ z 2515),
(4927, z 949 ⊛ z 2121 ⊹ z 978 ⊛ z 2504 ⊝ z 950 ⊛ z 2513 ⊝ z 977 ⊛ z 2435),
(4928, z 982 ⊛ z 4863 ⊹ z 1017 ⊛ z 2139 ⊝ z 905 ⊛ z 4927 ⊝ z 981 ⊛ z 2468 ⊝ z 1013 ⊛ z 2515),
(4929, z 978 ⊛ z 2509 ⊹ z 993 ⊛ z 2121 ⊝ z 973 ⊛ z 2507 ⊝ z 977 ⊛ z 2438 ⊝ z 989 ⊛ z 2106 ⊝ z 997
    ⊛ z 2513),
(4930, (z 2521 ⊛ (z 1010 ⊛ z 985 ⊹ z 1024 ⊛ z 987 ⊝ z 1020 ⊛ z 986 ⊝ z 1028 ⊛ z 988) ⊝ z 1001 ⊛ (z
    4925 ⊛ z 985 ⊹ z 4926 ⊛ z 987 ⊹ z 1020 ⊛ (z 2495 ⊝ z 2474) ⊝ z 4928 ⊛ z 986 ⊝ z 4929 ⊛ z 988 ⊝
    z 1028 ⊛ (z 2499 ⊹ z 2498) ⊝ z 1010 ⊛ (z 2433 ⊝ z 2412) ⊝ z 1024 ⊛ (z 2467 ⊝ z 2447))) ⊘ pow
    (z 1001) 2),
(4931, z 963 ⊛ z 2586 ⊹ z 978 ⊛ z 2961 ⊝ z 964 ⊛ z 2968 ⊝ z 977 ⊛ z 2568),
(4932, z 982 ⊛ z 4868 ⊹ z 1007 ⊛ z 2601 ⊝ z 905 ⊛ z 4931 ⊝ z 981 ⊛ z 2587 ⊝ z 1003 ⊛ z 2970),
(4933, z 982 ⊛ z 2964 ⊹ z 993 ⊛ z 2601 ⊝ z 905 ⊛ z 2962 ⊝ z 981 ⊛ z 2891 ⊝ z 997 ⊛ z 2970),
(4934, z 949 ⊛ z 2586 ⊹ z 978 ⊛ z 2959 ⊝ z 950 ⊛ z 2968 ⊝ z 977 ⊛ z 2888),
(4935, z 982 ⊛ z 4872 ⊹ z 1017 ⊛ z 2601 ⊝ z 905 ⊛ z 4934 ⊝ z 981 ⊛ z 2921 ⊝ z 1013 ⊛ z 2970),
(4936, z 978 ⊛ z 2964 ⊹ z 993 ⊛ z 2586 ⊝ z 973 ⊛ z 2962 ⊝ z 977 ⊛ z 2891 ⊝ z 989 ⊛ z 2571 ⊝ z 997
    ⊛ z 2968),
(4937, (z 2976 ⊛ (z 1010 ⊛ z 985 ⊹ z 1024 ⊛ z 987 ⊝ z 1020 ⊛ z 986 ⊝ z 1028 ⊛ z 988) ⊝ z 1001 ⊛ (z
    4932 ⊛ z 985 ⊹ z 4933 ⊛ z 987 ⊹ z 1020 ⊛ (z 2946 ⊝ z 2927) ⊝ z 4935 ⊛ z 986 ⊝ z 4936 ⊛ z 988 ⊝
    z 1028 ⊛ (z 2950 ⊹ z 2949) ⊝ z 1010 ⊛ (z 2886 ⊝ z 2866) ⊝ z 1024 ⊛ (z 2920 ⊝ z 2900))) ⊘ pow
    (z 1001) 2),
(4938, z 963 ⊛ z 2993 ⊹ z 978 ⊛ z 3317 ⊝ z 964 ⊛ z 3323 ⊝ z 977 ⊛ z 2984),
(4939, z 982 ⊛ z 4877 ⊹ z 1007 ⊛ z 3004 ⊝ z 905 ⊛ z 4938 ⊝ z 981 ⊛ z 2994 ⊝ z 1003 ⊛ z 3324),
(4940, z 982 ⊛ z 3320 ⊹ z 993 ⊛ z 3004 ⊝ z 905 ⊛ z 3318 ⊝ z 981 ⊛ z 3263 ⊝ z 997 ⊛ z 3324),
(4941, z 949 ⊛ z 2993 ⊹ z 978 ⊛ z 3315 ⊝ z 950 ⊛ z 3323 ⊝ z 977 ⊛ z 3261),
(4942, z 982 ⊛ z 4881 ⊹ z 1017 ⊛ z 3004 ⊝ z 905 ⊛ z 4941 ⊝ z 981 ⊛ z 3291 ⊝ z 1013 ⊛ z 3324),
(4943, z 978 ⊛ z 3320 ⊹ z 993 ⊛ z 2993 ⊝ z 973 ⊛ z 3318 ⊝ z 977 ⊛ z 3263 ⊝ z 989 ⊛ z 2985 ⊝ z 997
    ⊛ z 3323),
(4944, (z 3330 ⊛ (z 1010 ⊛ z 985 ⊹ z 1024 ⊛ z 987 ⊝ z 1020 ⊛ z 986 ⊝ z 1028 ⊛ z 988) ⊝ z 1001 ⊛ (z
    4939 ⊛ z 985 ⊹ z 4940 ⊛ z 987 ⊹ z 1020 ⊛ (z 3307 ⊝ z 3297) ⊝ z 1028 ⊛ z 3310 ⊝ z 4942 ⊛ z 986
    ⊝ z 4943 ⊛ z 988 ⊝ z 1010 ⊛ (z 3259 ⊝ z 3240) ⊝ z 1024 ⊛ (z 3290 ⊝ z 3271))) ⊘ pow (z 1001) 2),
(4945, z 963 ⊛ z 3360 ⊹ z 978 ⊛ z 3704 ⊝ z 964 ⊛ z 3711 ⊝ z 977 ⊛ z 3344),
(4946, z 982 ⊛ z 4886 ⊹ z 1007 ⊛ z 3375 ⊝ z 905 ⊛ z 4945 ⊝ z 981 ⊛ z 3361 ⊝ z 1003 ⊛ z 3712),
(4947, z 982 ⊛ z 3707 ⊹ z 993 ⊛ z 3375 ⊝ z 905 ⊛ z 3705 ⊝ z 981 ⊛ z 3643 ⊝ z 997 ⊛ z 3712),
(4948, z 949 ⊛ z 3360 ⊹ z 978 ⊛ z 3702 ⊝ z 950 ⊛ z 3711 ⊝ z 977 ⊛ z 3641),
(4949, z 982 ⊛ z 4890 ⊹ z 1017 ⊛ z 3375 ⊝ z 905 ⊛ z 4948 ⊝ z 981 ⊛ z 3672 ⊝ z 1013 ⊛ z 3712),
(4950, z 978 ⊛ z 3707 ⊹ z 993 ⊛ z 3360 ⊝ z 973 ⊛ z 3705 ⊝ z 977 ⊛ z 3643 ⊝ z 989 ⊛ z 3345 ⊝ z 997
    ⊛ z 3711),
(4951, (z 3718 ⊛ (z 1010 ⊛ z 985 ⊹ z 1024 ⊛ z 987 ⊝ z 1020 ⊛ z 986 ⊝ z 1028 ⊛ z 988) ⊝ z 1001 ⊛ (z
    4946 ⊛ z 985 ⊹ z 4947 ⊛ z 987 ⊹ z 1020 ⊛ (z 3694 ⊝ z 3678) ⊝ z 1028 ⊛ z 3697 ⊝ z 4949 ⊛ z 986
    ⊝ z 4950 ⊛ z 988 ⊝ z 1010 ⊛ (z 3639 ⊝ z 3619) ⊝ z 1024 ⊛ (z 3671 ⊝ z 3652))) ⊘ pow (z 1001) 2),
(4952, z 963 ⊛ z 3736 ⊹ z 978 ⊛ z 4061 ⊝ z 964 ⊛ z 4068 ⊝ z 977 ⊛ z 3726),
(4953, z 982 ⊛ z 4895 ⊹ z 1007 ⊛ z 3751 ⊝ z 905 ⊛ z 4952 ⊝ z 981 ⊛ z 3737 ⊝ z 1003 ⊛ z 4069),
(4954, z 982 ⊛ z 4064 ⊹ z 993 ⊛ z 3751 ⊝ z 905 ⊛ z 4062 ⊝ z 981 ⊛ z 4006 ⊝ z 997 ⊛ z 4069),
(4955, z 949 ⊛ z 3736 ⊹ z 978 ⊛ z 4059 ⊝ z 950 ⊛ z 4068 ⊝ z 977 ⊛ z 4004),
(4956, z 982 ⊛ z 4899 ⊹ z 1017 ⊛ z 3751 ⊝ z 905 ⊛ z 4955 ⊝ z 981 ⊛ z 4035 ⊝ z 1013 ⊛ z 4069),
(4957, z 978 ⊛ z 4064 ⊹ z 993 ⊛ z 3736 ⊝ z 973 ⊛ z 4062 ⊝ z 977 ⊛ z 4006 ⊝ z 989 ⊛ z 3727 ⊝ z 997
    ⊛ z 4068),
(4958, (z 4075 ⊛ (z 1010 ⊛ z 985 ⊹ z 1024 ⊛ z 987 ⊝ z 1020 ⊛ z 986 ⊝ z 1028 ⊛ z 988) ⊝ z 1001 ⊛ (z
    4953 ⊛ z 985 ⊹ z 4954 ⊛ z 987 ⊹ z 1020 ⊛ (z 4051 ⊝ z 4041) ⊝ z 1028 ⊛ z 4054 ⊝ z 4956 ⊛ z 986
    ⊝ z 4957 ⊛ z 988 ⊝ z 1010 ⊛ (z 4002 ⊝ z 3983) ⊝ z 1024 ⊛ (z 4034 ⊝ z 4015))) ⊘ pow (z 1001) 2),
(4959, z 963 ⊛ z 4117 ⊹ z 978 ⊛ z 4212 ⊝ z 964 ⊛ z 4218 ⊝ z 977 ⊛ z 4106),
(4960, z 982 ⊛ z 4904 ⊹ z 1007 ⊛ z 4128 ⊝ n 2 ⊛ z 1009 ⊛ z 4120 ⊝ z 905 ⊛ z 4959 ⊝ z 981 ⊛ z 4118
    ⊝ z 1003 ⊛ z 4220),
(4961, z 982 ⊛ z 4215 ⊹ z 993 ⊛ z 4128 ⊝ n 2 ⊛ z 989 ⊛ z 4120 ⊝ z 905 ⊛ z 4213 ⊝ z 981 ⊛ z 4181 ⊝
    z 997 ⊛ z 4220),
(4962, z 949 ⊛ z 4117 ⊹ z 978 ⊛ z 4210 ⊝ z 950 ⊛ z 4218 ⊝ z 977 ⊛ z 4178),
(4963, z 982 ⊛ z 4908 ⊹ z 1017 ⊛ z 4128 ⊝ n 2 ⊛ z 1019 ⊛ z 4120 ⊝ z 905 ⊛ z 4962 ⊝ z 981 ⊛ z 4192
    ⊝ z 1013 ⊛ z 4220),
(4964, z 978 ⊛ z 4215 ⊹ z 993 ⊛ z 4117 ⊝ z 973 ⊛ z 4213 ⊝ z 977 ⊛ z 4181 ⊝ z 989 ⊛ z 4109 ⊝ z 997
    ⊛ z 4218),
(4965, (z 4226 ⊛ (z 1010 ⊛ z 985 ⊹ z 1024 ⊛ z 987 ⊝ z 1020 ⊛ z 986 ⊝ z 1028 ⊛ z 988) ⊹ z 1001 ⊛ (z
    4963 ⊛ z 986 ⊹ z 4964 ⊛ z 988 ⊹ z 1010 ⊛ (z 4177 ⊝ z 4171) ⊹ z 1024 ⊛ (z 4191 ⊝ z 4187) ⊝ z
    4960 ⊛ z 985 ⊝ z 4961 ⊛ z 987 ⊝ z 1020 ⊛ (z 4201 ⊝ z 4197) ⊝ z 1028 ⊛ (z 4205 ⊝ z 4204))) ⊘
    pow (z 1001) 2),
(4966, (z 1010 ⊛ z 4462 ⊹ z 1024 ⊛ z 4465 ⊝ z 1020 ⊛ z 4468 ⊝ z 1028 ⊛ z 4470) ⊘ z 1001),
(4967, (z 1010 ⊛ z 4591 ⊹ z 1024 ⊛ z 4594 ⊝ z 1020 ⊛ z 4597 ⊝ z 1028 ⊛ z 4599) ⊘ z 1001),
(4968, (z 1010 ⊛ z 4816 ⊹ z 1024 ⊛ z 4819 ⊝ z 1020 ⊛ z 4822 ⊝ z 1028 ⊛ z 4824) ⊘ z 1001),
(4969, (z 1010 ⊛ (z 4843 ⊹ z 4842) ⊹ z 1024 ⊛ (z 4845 ⊹ z 4844) ⊹ z 1020 ⊛ (z 4847 ⊝ z 4846) ⊝ z
    1028 ⊛ (c9 ⊛ z 98 ⊹ z 4848)) ⊘ z 1001),
(4970, z 982 ⊛ z 4851 ⊹ z 1006 ⊛ z 1722 ⊝ z 981 ⊛ z 1721 ⊝ z 983 ⊛ z 4917 ⊝ z 1002 ⊛ z 2039 ⊝ z
    1009 ⊛ z 1691),
(4971, z 982 ⊛ z 2042 ⊹ z 991 ⊛ z 1722 ⊝ z 981 ⊛ z 1984 ⊝ z 983 ⊛ z 2033 ⊝ z 989 ⊛ z 1691 ⊝ z 995
    ⊛ z 2039),
(4972, z 982 ⊛ z 4855 ⊹ z 1016 ⊛ z 1722 ⊝ z 981 ⊛ z 2010 ⊝ z 983 ⊛ z 4920 ⊝ z 1012 ⊛ z 2039 ⊝ z
    1019 ⊛ z 1691),
(4973, z 978 ⊛ z 2042 ⊹ z 991 ⊛ z 1713 ⊝ z 977 ⊛ z 1984 ⊝ z 979 ⊛ z 2033 ⊝ z 989 ⊛ z 1717 ⊝ z 995
    ⊛ z 2038),
(4974, (z 2045 ⊛ (z 1011 ⊛ z 985 ⊹ z 1025 ⊛ z 987 ⊝ z 1021 ⊛ z 986 ⊝ z 1029 ⊛ z 988) ⊝ z 1001 ⊛ (z
    4970 ⊛ z 985 ⊹ z 4971 ⊛ z 987 ⊹ z 1021 ⊛ (z 2025 ⊝ z 2015) ⊝ z 1029 ⊛ z 2028 ⊝ z 4972 ⊛ z 986
    ⊝ z 4973 ⊛ z 988 ⊝ z 1011 ⊛ (z 1977 ⊝ z 1958) ⊝ z 1025 ⊛ (z 2008 ⊝ z 1989))) ⊘ pow (z 1001) 2),
(4975, z 982 ⊛ z 4860 ⊹ z 1006 ⊛ z 2139 ⊝ z 981 ⊛ z 2138 ⊝ z 983 ⊛ z 4924 ⊝ z 1002 ⊛ z 2515 ⊝ z
    1009 ⊛ z 2078)]

/-- _mooreriderlean2012.py:10556-10755 -/
def part90 : List (ℕ × E) := [
(4976, z 982 ⊛ z 2518 ⊹ z 991 ⊛ z 2139 ⊝ z 981 ⊛ z 2442 ⊝ z 983 ⊛ z 2507 ⊝ z 989 ⊛ z 2078 ⊝ z 995
    ⊛ z 2515),
(4977, z 982 ⊛ z 4864 ⊹ z 1016 ⊛ z 2139 ⊝ z 981 ⊛ z 2469 ⊝ z 983 ⊛ z 4927 ⊝ z 1012 ⊛ z 2515 ⊝ z
    1019 ⊛ z 2078),
(4978, z 978 ⊛ z 2518 ⊹ z 991 ⊛ z 2121 ⊝ z 977 ⊛ z 2442 ⊝ z 979 ⊛ z 2507 ⊝ z 989 ⊛ z 2134 ⊝ z 995
    ⊛ z 2513),
(4979, (z 2521 ⊛ (z 1011 ⊛ z 985 ⊹ z 1025 ⊛ z 987 ⊝ z 1021 ⊛ z 986 ⊝ z 1029 ⊛ z 988) ⊝ z 1001 ⊛ (z
    4975 ⊛ z 985 ⊹ z 4976 ⊛ z 987 ⊹ z 1021 ⊛ (z 2495 ⊝ z 2474) ⊝ z 4977 ⊛ z 986 ⊝ z 4978 ⊛ z 988 ⊝
    z 1029 ⊛ (z 2499 ⊹ z 2498) ⊝ z 1011 ⊛ (z 2433 ⊝ z 2412) ⊝ z 1025 ⊛ (z 2467 ⊝ z 2447))) ⊘ pow
    (z 1001) 2),
(4980, z 982 ⊛ z 4869 ⊹ z 1006 ⊛ z 2601 ⊝ z 981 ⊛ z 2600 ⊝ z 983 ⊛ z 4931 ⊝ z 1002 ⊛ z 2970 ⊝ z
    1009 ⊛ z 2549),
(4981, z 982 ⊛ z 2973 ⊹ z 991 ⊛ z 2601 ⊝ z 981 ⊛ z 2895 ⊝ z 983 ⊛ z 2962 ⊝ z 989 ⊛ z 2549 ⊝ z 995
    ⊛ z 2970),
(4982, z 982 ⊛ z 4873 ⊹ z 1016 ⊛ z 2601 ⊝ z 981 ⊛ z 2922 ⊝ z 983 ⊛ z 4934 ⊝ z 1012 ⊛ z 2970 ⊝ z
    1019 ⊛ z 2549),
(4983, z 978 ⊛ z 2973 ⊹ z 991 ⊛ z 2586 ⊝ z 977 ⊛ z 2895 ⊝ z 979 ⊛ z 2962 ⊝ z 989 ⊛ z 2596 ⊝ z 995
    ⊛ z 2968),
(4984, (z 2976 ⊛ (z 1011 ⊛ z 985 ⊹ z 1025 ⊛ z 987 ⊝ z 1021 ⊛ z 986 ⊝ z 1029 ⊛ z 988) ⊝ z 1001 ⊛ (z
    4980 ⊛ z 985 ⊹ z 4981 ⊛ z 987 ⊹ z 1021 ⊛ (z 2946 ⊝ z 2927) ⊝ z 4982 ⊛ z 986 ⊝ z 4983 ⊛ z 988 ⊝
    z 1029 ⊛ (z 2950 ⊹ z 2949) ⊝ z 1011 ⊛ (z 2886 ⊝ z 2866) ⊝ z 1025 ⊛ (z 2920 ⊝ z 2900))) ⊘ pow
    (z 1001) 2),
(4985, z 982 ⊛ z 4878 ⊹ z 1006 ⊛ z 3004 ⊝ z 981 ⊛ z 3003 ⊝ z 983 ⊛ z 4938 ⊝ z 1002 ⊛ z 3324 ⊝ z
    1009 ⊛ z 2978),
(4986, z 982 ⊛ z 3327 ⊹ z 991 ⊛ z 3004 ⊝ z 981 ⊛ z 3266 ⊝ z 983 ⊛ z 3318 ⊝ z 989 ⊛ z 2978 ⊝ z 995
    ⊛ z 3324),
(4987, z 982 ⊛ z 4882 ⊹ z 1016 ⊛ z 3004 ⊝ z 981 ⊛ z 3292 ⊝ z 983 ⊛ z 4941 ⊝ z 1012 ⊛ z 3324 ⊝ z
    1019 ⊛ z 2978),
(4988, z 978 ⊛ z 3327 ⊹ z 991 ⊛ z 2993 ⊝ z 977 ⊛ z 3266 ⊝ z 979 ⊛ z 3318 ⊝ z 989 ⊛ z 2999 ⊝ z 995
    ⊛ z 3323),
(4989, (z 3330 ⊛ (z 1011 ⊛ z 985 ⊹ z 1025 ⊛ z 987 ⊝ z 1021 ⊛ z 986 ⊝ z 1029 ⊛ z 988) ⊝ z 1001 ⊛ (z
    4985 ⊛ z 985 ⊹ z 4986 ⊛ z 987 ⊹ z 1021 ⊛ (z 3307 ⊝ z 3297) ⊝ z 1029 ⊛ z 3310 ⊝ z 4987 ⊛ z 986
    ⊝ z 4988 ⊛ z 988 ⊝ z 1011 ⊛ (z 3259 ⊝ z 3240) ⊝ z 1025 ⊛ (z 3290 ⊝ z 3271))) ⊘ pow (z 1001) 2),
(4990, z 982 ⊛ z 4887 ⊹ z 1006 ⊛ z 3375 ⊝ z 981 ⊛ z 3374 ⊝ z 983 ⊛ z 4945 ⊝ z 1002 ⊛ z 3712 ⊝ z
    1009 ⊛ z 3332),
(4991, z 982 ⊛ z 3715 ⊹ z 991 ⊛ z 3375 ⊝ z 981 ⊛ z 3647 ⊝ z 983 ⊛ z 3705 ⊝ z 989 ⊛ z 3332 ⊝ z 995
    ⊛ z 3712),
(4992, z 982 ⊛ z 4891 ⊹ z 1016 ⊛ z 3375 ⊝ z 981 ⊛ z 3673 ⊝ z 983 ⊛ z 4948 ⊝ z 1012 ⊛ z 3712 ⊝ z
    1019 ⊛ z 3332),
(4993, z 978 ⊛ z 3715 ⊹ z 991 ⊛ z 3360 ⊝ z 977 ⊛ z 3647 ⊝ z 979 ⊛ z 3705 ⊝ z 989 ⊛ z 3370 ⊝ z 995
    ⊛ z 3711),
(4994, (z 3718 ⊛ (z 1011 ⊛ z 985 ⊹ z 1025 ⊛ z 987 ⊝ z 1021 ⊛ z 986 ⊝ z 1029 ⊛ z 988) ⊝ z 1001 ⊛ (z
    4990 ⊛ z 985 ⊹ z 4991 ⊛ z 987 ⊹ z 1021 ⊛ (z 3694 ⊝ z 3678) ⊝ z 1029 ⊛ z 3697 ⊝ z 4992 ⊛ z 986
    ⊝ z 4993 ⊛ z 988 ⊝ z 1011 ⊛ (z 3639 ⊝ z 3619) ⊝ z 1025 ⊛ (z 3671 ⊝ z 3652))) ⊘ pow (z 1001) 2),
(4995, z 982 ⊛ z 4896 ⊹ z 1006 ⊛ z 3751 ⊝ z 981 ⊛ z 3750 ⊝ z 983 ⊛ z 4952 ⊝ z 1002 ⊛ z 4069 ⊝ z
    1009 ⊛ z 3720),
(4996, z 982 ⊛ z 4072 ⊹ z 991 ⊛ z 3751 ⊝ z 981 ⊛ z 4010 ⊝ z 983 ⊛ z 4062 ⊝ z 989 ⊛ z 3720 ⊝ z 995
    ⊛ z 4069),
(4997, z 982 ⊛ z 4900 ⊹ z 1016 ⊛ z 3751 ⊝ z 981 ⊛ z 4036 ⊝ z 983 ⊛ z 4955 ⊝ z 1012 ⊛ z 4069 ⊝ z
    1019 ⊛ z 3720),
(4998, z 978 ⊛ z 4072 ⊹ z 991 ⊛ z 3736 ⊝ z 977 ⊛ z 4010 ⊝ z 979 ⊛ z 4062 ⊝ z 989 ⊛ z 3746 ⊝ z 995
    ⊛ z 4068),
(4999, (z 4075 ⊛ (z 1011 ⊛ z 985 ⊹ z 1025 ⊛ z 987 ⊝ z 1021 ⊛ z 986 ⊝ z 1029 ⊛ z 988) ⊝ z 1001 ⊛ (z
    4995 ⊛ z 985 ⊹ z 4996 ⊛ z 987 ⊹ z 1021 ⊛ (z 4051 ⊝ z 4041) ⊝ z 1029 ⊛ z 4054 ⊝ z 4997 ⊛ z 986
    ⊝ z 4998 ⊛ z 988 ⊝ z 1011 ⊛ (z 4002 ⊝ z 3983) ⊝ z 1025 ⊛ (z 4034 ⊝ z 4015))) ⊘ pow (z 1001) 2),
(5000, z 982 ⊛ z 4905 ⊹ z 1006 ⊛ z 4128 ⊝ z 981 ⊛ z 4127 ⊝ z 983 ⊛ z 4959 ⊝ z 1002 ⊛ z 4220 ⊝ z
    1009 ⊛ z 4096),
(5001, z 982 ⊛ z 4223 ⊹ z 991 ⊛ z 4128 ⊝ z 981 ⊛ z 4183 ⊝ z 983 ⊛ z 4213 ⊝ z 989 ⊛ z 4096 ⊝ z 995
    ⊛ z 4220),
(5002, z 982 ⊛ z 4909 ⊹ z 1016 ⊛ z 4128 ⊝ z 981 ⊛ z 4193 ⊝ z 983 ⊛ z 4962 ⊝ z 1012 ⊛ z 4220 ⊝ z
    1019 ⊛ z 4096),
(5003, z 978 ⊛ z 4223 ⊹ z 991 ⊛ z 4117 ⊝ z 977 ⊛ z 4183 ⊝ z 979 ⊛ z 4213 ⊝ z 989 ⊛ z 4124 ⊝ z 995
    ⊛ z 4218),
(5004, (z 4226 ⊛ (z 1011 ⊛ z 985 ⊹ z 1025 ⊛ z 987 ⊝ z 1021 ⊛ z 986 ⊝ z 1029 ⊛ z 988) ⊹ z 1001 ⊛ (z
    5002 ⊛ z 986 ⊹ z 5003 ⊛ z 988 ⊹ z 1011 ⊛ (z 4177 ⊝ z 4171) ⊹ z 1025 ⊛ (z 4191 ⊝ z 4187) ⊝ z
    5000 ⊛ z 985 ⊝ z 5001 ⊛ z 987 ⊝ z 1021 ⊛ (z 4201 ⊝ z 4197) ⊝ z 1029 ⊛ (z 4205 ⊝ z 4204))) ⊘
    pow (z 1001) 2),
(5005, (z 1011 ⊛ z 4462 ⊹ z 1025 ⊛ z 4465 ⊝ z 1021 ⊛ z 4468 ⊝ z 1029 ⊛ z 4470) ⊘ z 1001),
(5006, (z 1011 ⊛ z 4591 ⊹ z 1025 ⊛ z 4594 ⊝ z 1021 ⊛ z 4597 ⊝ z 1029 ⊛ z 4599) ⊘ z 1001),
(5007, (z 1011 ⊛ z 4816 ⊹ z 1025 ⊛ z 4819 ⊝ z 1021 ⊛ z 4822 ⊝ z 1029 ⊛ z 4824) ⊘ z 1001),
(5008, (z 1011 ⊛ (z 4843 ⊹ z 4842) ⊹ z 1025 ⊛ (z 4845 ⊹ z 4844) ⊹ z 1021 ⊛ (z 4847 ⊝ z 4846) ⊝ z
    1029 ⊛ (c9 ⊛ z 98 ⊹ z 4848)) ⊘ z 1001),
(5009, z 5 ⊛ z 670 ⊹ z 6 ⊛ z 672),
(5010, z 5 ⊛ z 676 ⊹ z 6 ⊛ z 678),
(5011, z 5 ⊛ z 673 ⊝ z 6 ⊛ z 675),
(5012, (z 1015 ⊛ z 5011 ⊝ z 1005 ⊛ z 5009 ⊝ z 1022 ⊛ z 5010) ⊘ z 1001),
(5013, z 1015 ⊛ (z 674 ⊹ z 681) ⊘ z 1001),
(5014, (z 1005 ⊛ (z 672 ⊝ z 688) ⊹ z 1022 ⊛ (z 678 ⊝ z 692)) ⊘ z 1001),
(5015, z 694 ⊝ z 13 ⊛ z 670 ⊝ z 14 ⊛ z 672),
(5016, z 700 ⊝ z 13 ⊛ z 676 ⊝ z 14 ⊛ z 678),
(5017, z 14 ⊛ z 675 ⊝ z 697 ⊝ z 13 ⊛ z 673),
(5018, (z 98 ⊛ z 1026 ⊹ z 1015 ⊛ z 5017 ⊝ z 1005 ⊛ z 5015 ⊝ z 1022 ⊛ z 5016) ⊘ z 1001),
(5019, (z 1018 ⊛ z 5011 ⊝ z 1008 ⊛ z 5009 ⊝ z 1023 ⊛ z 5010) ⊘ z 1001),
(5020, z 1018 ⊛ (z 674 ⊹ z 681) ⊘ z 1001),
(5021, (z 1008 ⊛ (z 672 ⊝ z 688) ⊹ z 1023 ⊛ (z 678 ⊝ z 692)) ⊘ z 1001),
(5022, (z 98 ⊛ z 1027 ⊹ z 1018 ⊛ z 5017 ⊝ z 1008 ⊛ z 5015 ⊝ z 1023 ⊛ z 5016) ⊘ z 1001),
(5023, (z 1020 ⊛ z 5011 ⊝ z 1010 ⊛ z 5009 ⊝ z 1024 ⊛ z 5010) ⊘ z 1001),
(5024, z 1020 ⊛ (z 674 ⊹ z 681) ⊘ z 1001),
(5025, (z 1010 ⊛ (z 672 ⊝ z 688) ⊹ z 1024 ⊛ (z 678 ⊝ z 692)) ⊘ z 1001),
(5026, (z 98 ⊛ z 1028 ⊹ z 1020 ⊛ z 5017 ⊝ z 1010 ⊛ z 5015 ⊝ z 1024 ⊛ z 5016) ⊘ z 1001),
(5027, (z 1021 ⊛ z 5011 ⊝ z 1011 ⊛ z 5009 ⊝ z 1025 ⊛ z 5010) ⊘ z 1001),
(5028, z 1021 ⊛ (z 674 ⊹ z 681) ⊘ z 1001),
(5029, (z 1011 ⊛ (z 672 ⊝ z 688) ⊹ z 1025 ⊛ (z 678 ⊝ z 692)) ⊘ z 1001),
(5030, (z 98 ⊛ z 1029 ⊹ z 1021 ⊛ z 5017 ⊝ z 1011 ⊛ z 5015 ⊝ z 1025 ⊛ z 5016) ⊘ z 1001),
(5200, n 0),
(5201, n 0),
(5202, z 1060),
(5203, z 1197),
(5204, z 1325),
(5205, z 1338),
(5206, z 1451),
(5207, z 1468),
(5208, n 0),
(5209, z 538),
(5210, neg (z 539)),
(5211, neg (z 540)),
(5212, n 0),
(5213, n 0),
(5214, n 0),
(5215, z 1479),
(5216, z 1491),
(5217, z 1502),
(5218, z 1508),
(5219, z 1518),
(5220, z 1525),
(5221, n 0),
(5222, neg (z 541)),
(5223, z 542),
(5224, z 543),
(5225, n 0),
(5226, n 0),
(5227, n 0),
(5228, z 1534),
(5229, z 1543),
(5230, z 1552),
(5231, z 1557),
(5232, z 1566),
(5233, z 1570),
(5234, n 0),
(5235, z 544),
(5236, neg (z 545)),
(5237, neg (z 546)),
(5238, n 0),
(5239, n 0),
(5240, n 0),
(5241, n 0),
(5242, n 0),
(5243, n 0),
(5244, n 0),
(5245, n 0),
(5246, n 0),
(5247, n 0),
(5248, n 1),
(5249, n 0),
(5250, n 0),
(5251, n 0),
(5252, n 0),
(5253, n 0),
(5254, z 1574),
(5255, z 1578),
(5256, z 1582),
(5257, z 1586),
(5258, z 1590),
(5259, z 1593),
(5260, n 0),
(5261, z 547),
(5262, n 0),
(5263, z 548),
(5264, n 0),
(5265, n 0),
(5266, n 0),
(5267, n 0),
(5268, n 0),
(5269, n 0),
(5270, n 0),
(5271, n 0),
(5272, n 0),
(5273, n 0),
(5274, n 0),
(5275, n 1),
(5276, n 0),
(5277, n 0),
(5278, n 0),
(5279, n 0),
(5280, n 0),
(5281, n 0),
(5282, n 0),
(5283, n 0),
(5284, n 0),
(5285, n 0),
(5286, n 0),
(5287, n 0),
(5288, n 0),
(5289, n 1),
(5290, n 0),
(5291, n 0),
(5292, n 0),
(5293, z 1607),
(5294, z 1625)]

/-- _mooreriderlean2012.py:10756-10905 -/
def part91 : List (ℕ × E) := [
(5295, z 1643),
(5296, z 1651),
(5297, z 1669),
(5298, z 1683),
(5299, n 0),
(5300, z 549),
(5301, neg (z 550)),
(5302, z 551),
(5303, n 0),
(5304, n 0),
(5305, n 0),
(5306, n 0),
(5307, n 0),
(5308, n 0),
(5309, n 0),
(5310, n 0),
(5311, n 0),
(5312, n 0),
(5313, n 0),
(5314, n 0),
(5315, n 0),
(5316, n 1),
(5317, n 0),
(5318, n 0),
(5319, neg (z 2046)),
(5320, neg (z 2522)),
(5321, neg (z 2977)),
(5322, neg (z 3331)),
(5323, neg (z 3719)),
(5324, neg (z 4076)),
(5325, neg (z 4227)),
(5326, z 4471),
(5327, z 4600),
(5328, z 4825),
(5329, z 4849),
(5330, n 0),
(5331, n 0),
(5332, z 4858),
(5333, z 4867),
(5334, z 4876),
(5335, z 4885),
(5336, z 4894),
(5337, z 4903),
(5338, z 4912),
(5339, neg (z 4913)),
(5340, neg (z 4914)),
(5341, neg (z 4915)),
(5342, neg (z 4916)),
(5343, n 0),
(5344, n 0),
(5345, neg (z 4923)),
(5346, neg (z 4930)),
(5347, neg (z 4937)),
(5348, neg (z 4944)),
(5349, neg (z 4951)),
(5350, neg (z 4958)),
(5351, neg (z 4965)),
(5352, z 4966),
(5353, z 4967),
(5354, z 4968),
(5355, z 4969),
(5356, n 0),
(5357, n 0),
(5358, z 4974),
(5359, z 4979),
(5360, z 4984),
(5361, z 4989),
(5362, z 4994),
(5363, z 4999),
(5364, z 5004),
(5365, neg (z 5005)),
(5366, neg (z 5006)),
(5367, neg (z 5007)),
(5368, neg (z 5008)),
(5400, n 0),
(5401, n 0),
(5402, n 0),
(5403, n 0),
(5404, n 0),
(5405, n 0),
(5406, n 0),
(5407, n 0),
(5408, n 0),
(5409, n 0),
(5410, n 0),
(5411, n 0),
(5412, n 0),
(5413, n 0),
(5414, n 0),
(5415, n 0),
(5416, n 0),
(5417, n 0),
(5418, n 0),
(5419, n 0),
(5420, n 0),
(5421, n 0),
(5422, n 0),
(5423, n 0),
(5424, n 0),
(5425, n 0),
(5426, n 0),
(5427, n 0),
(5428, n 0),
(5429, n 0),
(5430, n 0),
(5431, n 0),
(5432, n 0),
(5433, n 0),
(5434, n 0),
(5435, n 0),
(5436, z 5012),
(5437, z 5013),
(5438, z 5014),
(5439, z 5018),
(5440, neg (z 5019)),
(5441, neg (z 5020)),
(5442, neg (z 5021)),
(5443, neg (z 5022)),
(5444, z 5023),
(5445, z 5024),
(5446, z 5025),
(5447, z 5026),
(5448, neg (z 5027)),
(5449, neg (z 5028)),
(5450, neg (z 5029)),
(5451, neg (z 5030)),
(5500, n 1),
(5501, n 0),
(5502, n 0),
(5503, n 0),
(5504, n 0),
(5505, n 0),
(5506, n 0),
(5507, n 0),
(5508, n 0),
(5509, n 0),
(5510, n 0),
(5511, n 0),
(5512, n 0),
(5513, n 0),
(5514, n 1),
(5515, n 0),
(5516, n 0),
(5517, n 0),
(5518, n 0),
(5519, n 0),
(5520, n 0),
(5521, n 0),
(5522, n 0),
(5523, n 0)]

/-- _mooreriderlean2012.py:10906-11055 -/
def part92 : List (ℕ × E) := [
(5524, n 0),
(5525, n 0),
(5526, n 0),
(5527, n 0),
(5528, n 1),
(5529, n 0),
(5530, n 0),
(5531, n 0),
(5532, n 0),
(5533, n 0),
(5534, n 0),
(5535, n 0),
(5536, n 0),
(5537, n 0),
(5538, n 0),
(5539, n 0),
(5540, n 0),
(5541, n 0),
(5542, n 1),
(5543, n 0),
(5544, n 0),
(5545, n 0),
(5546, n 0),
(5547, n 0),
(5548, n 0),
(5549, n 0),
(5550, n 0),
(5551, n 0),
(5552, n 0),
(5553, n 0),
(5554, n 0),
(5555, n 0),
(5556, n 1),
(5557, n 0),
(5558, n 0),
(5559, n 0),
(5560, n 0),
(5561, n 0),
(5562, n 0),
(5563, n 0),
(5564, n 0),
(5565, n 0),
(5566, n 0),
(5567, n 0),
(5568, n 0),
(5569, n 0),
(5570, n 1),
(5571, n 0),
(5572, n 0),
(5573, n 0),
(5574, n 0),
(5575, n 0),
(5576, n 0),
(5577, n 0),
(5578, n 0),
(5579, n 0),
(5580, n 0),
(5581, n 0),
(5582, n 0),
(5583, n 0),
(5584, n 1),
(5585, n 0),
(5586, n 0),
(5587, n 0),
(5588, n 0),
(5589, n 0),
(5590, n 0),
(5591, n 0),
(5592, n 0),
(5593, n 0),
(5594, n 0),
(5595, n 0),
(5596, n 0),
(5597, n 0),
(5598, n 1),
(5599, n 0),
(5600, n 0),
(5601, n 0),
(5602, n 0),
(5603, n 0),
(5604, n 0),
(5605, n 0),
(5606, n 0),
(5607, n 0),
(5608, n 0),
(5609, n 0),
(5610, n 0),
(5611, n 0),
(5612, n 1),
(5613, n 0),
(5614, n 0),
(5615, n 0),
(5616, n 0),
(5617, n 0),
(5618, n 0),
(5619, z 1060),
(5620, z 1197),
(5621, z 1325),
(5622, z 1338),
(5623, z 1451),
(5624, z 1468),
(5625, n 0),
(5626, z 538),
(5627, neg (z 539)),
(5628, neg (z 540)),
(5629, n 0),
(5630, n 0),
(5631, n 0),
(5632, z 1479),
(5633, z 1491),
(5634, z 1502),
(5635, z 1508),
(5636, z 1518),
(5637, z 1525),
(5638, n 0),
(5639, neg (z 541)),
(5640, z 542),
(5641, z 543),
(5642, n 0),
(5643, n 0),
(5644, n 0),
(5645, z 1534),
(5646, z 1543),
(5647, z 1552),
(5648, z 1557),
(5649, z 1566),
(5650, z 1570),
(5651, n 0),
(5652, z 544),
(5653, neg (z 545)),
(5654, neg (z 546)),
(5655, n 0),
(5656, n 0),
(5657, n 0),
(5658, n 0),
(5659, n 0),
(5660, n 0),
(5661, n 0),
(5662, n 0),
(5663, n 0),
(5664, n 0),
(5665, n 1),
(5666, n 0),
(5667, n 0),
(5668, n 0),
(5669, n 0),
(5670, n 0),
(5671, z 1574),
(5672, z 1578),
(5673, z 1582)]

/-- _mooreriderlean2012.py:11056-11187 -/
def part93 : List (ℕ × E) := [
(5674, z 1586),
(5675, z 1590),
(5676, z 1593),
(5677, n 0),
(5678, z 547),
(5679, n 0),
(5680, z 548),
(5681, n 0),
(5682, n 0),
(5683, n 0),
(5684, n 0),
(5685, n 0),
(5686, n 0),
(5687, n 0),
(5688, n 0),
(5689, n 0),
(5690, n 0),
(5691, n 0),
(5692, n 1),
(5693, n 0),
(5694, n 0),
(5695, n 0),
(5696, n 0),
(5697, n 0),
(5698, n 0),
(5699, n 0),
(5700, n 0),
(5701, n 0),
(5702, n 0),
(5703, n 0),
(5704, n 0),
(5705, n 0),
(5706, n 1),
(5707, n 0),
(5708, n 0),
(5709, n 0),
(5710, z 1607),
(5711, z 1625),
(5712, z 1643),
(5713, z 1651),
(5714, z 1669),
(5715, z 1683),
(5716, n 0),
(5717, z 549),
(5718, neg (z 550)),
(5719, z 551),
(5720, n 0),
(5721, n 0),
(5722, n 0),
(5723, n 0),
(5724, n 0),
(5725, n 0),
(5726, n 0),
(5727, n 0),
(5728, n 0),
(5729, n 0),
(5730, n 0),
(5731, n 0),
(5732, n 0),
(5733, n 1),
(5800, n 0),
(5801, n 0),
(5802, n 0),
(5803, n 0),
(5804, n 0),
(5805, n 0),
(5806, n 0),
(5807, n 0),
(5808, n 0),
(5809, n 0),
(5810, n 0),
(5811, n 0),
(5812, n 0),
(5813, n 0),
(5814, n 0),
(5815, n 0),
(5816, n 0),
(5817, n 0),
(5818, n 0),
(5819, n 0),
(5820, n 0),
(5821, n 0),
(5822, n 0),
(5823, n 0),
(5824, n 0),
(5825, n 0),
(5826, n 0),
(5827, n 0),
(5828, n 0),
(5829, n 0),
(5830, n 0),
(5831, n 0),
(5832, n 0),
(5833, n 0),
(5834, n 0),
(5835, n 0),
(5836, n 0),
(5837, n 0),
(5838, n 0),
(5839, n 0),
(5840, n 0),
(5841, n 0),
(5842, n 0),
(5843, n 0),
(5844, n 0),
(5845, n 0),
(5846, n 0),
(5847, n 0),
(5848, n 0),
(5849, n 0),
(5850, n 0),
(5851, n 0),
(5852, n 0),
(5853, n 0),
(5854, n 0),
(5855, n 0),
(5856, n 0),
(5857, n 0),
(5858, n 0),
(5859, n 0),
(5860, n 0),
(5861, n 0),
(5862, n 0),
(5863, n 0),
(5864, n 0),
(5865, n 0),
(5866, n 0),
(5867, n 0),
(5868, n 0),
(5869, n 0),
(5870, n 0),
(5871, n 0)]

end BP.EL
