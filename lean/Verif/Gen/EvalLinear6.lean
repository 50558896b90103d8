import Verif.Model.EvalLinear

/-!
# The body of `eval_linear`, part 6

Generated by tools/gen_eval_linear.py from _mooreriderlean2012.py:7031-8336.  Do not edit.
-/

namespace BP.EL

open E

/-- _mooreriderlean2012.py:7031-7132 -/
def part60 : List (ℕ × E) := [
(3357, z 91 ⊛ z 3338 ⊹ z 95 ⊛ z 3339 ⊹ z 806 ⊛ z 1419 ⊹ z 811 ⊛ z 1418 ⊹ z 815 ⊛ z 1414 ⊹ z 817 ⊛
    z 1419 ⊹ z 822 ⊛ z 1418 ⊹ z 833 ⊛ z 1422 ⊹ z 840 ⊛ z 1414 ⊹ z 843 ⊛ z 1421 ⊹ ie11 ⊛ z 43 ⊛ z
    73 ⊛ z 1348 ⊹ ie22 ⊛ z 43 ⊛ z 76 ⊛ z 1340 ⊹ ie31 ⊛ z 43 ⊛ z 78 ⊛ z 1348 ⊹ if22 ⊛ z 43 ⊛ z 76 ⊛
    z 1340 ⊝ me ⊛ (z 160 ⊛ z 3333 ⊹ z 158 ⊛ z 146 ⊛ z 1414 ⊹ z 9 ⊛ z 143 ⊛ z 3333 ⊹ z 10 ⊛ z 143 ⊛
    z 159 ⊹ z 10 ⊛ z 145 ⊛ z 160 ⊹ z 163 ⊛ z 9 ⊛ z 126 ⊛ z 1414 ⊝ z 159 ⊛ z 3350 ⊝ z 158 ⊛ z 169 ⊛
    z 1414 ⊝ z 163 ⊛ z 166 ⊛ z 1414 ⊝ z 9 ⊛ z 126 ⊛ z 160 ⊝ z 9 ⊛ z 143 ⊛ z 166 ⊝ z 9 ⊛ z 145 ⊛ z
    164 ⊝ z 9 ⊛ z 145 ⊛ z 3350 ⊝ z 10 ⊛ z 126 ⊛ z 164 ⊝ z 10 ⊛ z 126 ⊛ z 3350 ⊝ z 158 ⊛ z 43 ⊛ z
    141 ⊛ z 1340 ⊝ z 158 ⊛ z 43 ⊛ z 167 ⊛ z 1340 ⊝ z 163 ⊛ z 10 ⊛ z 145 ⊛ z 1414 ⊝ z 163 ⊛ z 43 ⊛
    z 164 ⊛ z 1340 ⊝ z 163 ⊛ z 10 ⊛ z 43 ⊛ z 143 ⊛ z 1340) ⊝ mf ⊛ (d3 ⊛ z 146 ⊛ z 1414 ⊹ z 10 ⊛ z
    143 ⊛ z 148 ⊹ z 10 ⊛ z 145 ⊛ z 149 ⊹ d2 ⊛ z 9 ⊛ z 126 ⊛ z 1414 ⊹ d2 ⊛ z 43 ⊛ z 149 ⊛ z 1348 ⊹
    d2 ⊛ z 9 ⊛ z 43 ⊛ z 143 ⊛ z 1348 ⊝ z 148 ⊛ z 1420 ⊝ d2 ⊛ z 154 ⊛ z 1414 ⊝ d3 ⊛ z 157 ⊛ z 1414
    ⊝ z 9 ⊛ z 126 ⊛ z 149 ⊝ z 9 ⊛ z 143 ⊛ z 154 ⊝ z 9 ⊛ z 145 ⊛ z 152 ⊝ z 9 ⊛ z 145 ⊛ z 1420 ⊝ z
    10 ⊛ z 126 ⊛ z 152 ⊝ z 10 ⊛ z 126 ⊛ z 1420 ⊝ d2 ⊛ z 10 ⊛ z 145 ⊛ z 1414 ⊝ d2 ⊛ z 43 ⊛ z 152 ⊛
    z 1340 ⊝ d3 ⊛ z 43 ⊛ z 141 ⊛ z 1340 ⊝ d3 ⊛ z 43 ⊛ z 155 ⊛ z 1340 ⊝ d2 ⊛ z 10 ⊛ z 43 ⊛ z 143 ⊛
    z 1340)),
(3358, z 3356 ⊹ z 543 ⊛ z 3334 ⊹ z 548 ⊛ z 3357 ⊹ z 551 ⊛ z 3341 ⊹ z 912 ⊛ z 1450 ⊹ z 919 ⊛ z 1565
    ⊝ z 540 ⊛ z 3336 ⊝ z 546 ⊛ z 3340 ⊝ z 916 ⊛ z 1514 ⊝ z 927 ⊛ z 1589 ⊝ z 936 ⊛ z 1667),
(3359, z 923 ⊛ z 1565 ⊹ z 548 ⊛ z 841 ⊛ z 1414 ⊝ z 931 ⊛ z 1589 ⊝ z 937 ⊛ z 1667 ⊝ z 43 ⊛ z 546 ⊛
    z 841 ⊛ z 1340),
(3360, z 3347 ⊹ z 542 ⊛ z 3352 ⊹ z 972 ⊛ z 1512 ⊝ z 539 ⊛ z 3355 ⊝ z 545 ⊛ z 3358 ⊝ z 550 ⊛ z 3359
    ⊝ z 970 ⊛ z 1564 ⊝ z 971 ⊛ z 1439 ⊝ z 975 ⊛ z 1668),
(3361, z 964 ⊛ z 3345 ⊹ z 973 ⊛ z 3344 ⊝ z 960 ⊛ z 3360 ⊝ z 978 ⊛ z 3346),
(3362, z 805 ⊛ z 1443 ⊹ z 810 ⊛ z 1441 ⊹ z 819 ⊛ z 1443 ⊹ z 824 ⊛ z 1441 ⊹ z 836 ⊛ z 1446 ⊹ z 845
    ⊛ z 1445 ⊹ ie11 ⊛ z 75 ⊛ z 1443 ⊹ ie31 ⊛ z 75 ⊛ z 1441 ⊹ ie31 ⊛ z 79 ⊛ z 1443 ⊹ ie33 ⊛ z 79 ⊛
    z 1441 ⊹ if11 ⊛ z 93 ⊛ z 1446 ⊹ if11 ⊛ z 96 ⊛ z 1445 ⊹ n 2 ⊛ me ⊛ z 161 ⊛ z 3348 ⊹ n 2 ⊛ mf ⊛
    z 150 ⊛ z 1444),
(3363, z 805 ⊛ z 1419 ⊹ z 810 ⊛ z 1418 ⊹ z 819 ⊛ z 1419 ⊹ z 824 ⊛ z 1418 ⊹ z 836 ⊛ z 1422 ⊹ z 845
    ⊛ z 1421 ⊹ ie11 ⊛ z 73 ⊛ z 1443 ⊹ ie31 ⊛ z 73 ⊛ z 1441 ⊹ ie31 ⊛ z 78 ⊛ z 1443 ⊹ ie33 ⊛ z 78 ⊛
    z 1441 ⊹ if11 ⊛ z 91 ⊛ z 1446 ⊹ if11 ⊛ z 95 ⊛ z 1445 ⊹ me ⊛ z 3348 ⊛ (z 160 ⊹ z 9 ⊛ z 143) ⊹
    mf ⊛ z 1444 ⊛ (z 149 ⊹ z 9 ⊛ z 143) ⊹ me ⊛ z 161 ⊛ (z 3350 ⊝ z 10 ⊛ z 143) ⊹ mf ⊛ z 150 ⊛ (z
    1420 ⊝ z 10 ⊛ z 143)),
(3364, ie11 ⊛ z 81 ⊛ z 1443 ⊹ ie31 ⊛ z 52 ⊛ z 1443 ⊹ ie31 ⊛ z 81 ⊛ z 1441 ⊹ ie33 ⊛ z 52 ⊛ z 1441 ⊹
    if11 ⊛ z 90 ⊛ z 1446 ⊹ if11 ⊛ z 94 ⊛ z 1445 ⊹ z 43 ⊛ z 805 ⊛ z 1348 ⊹ z 43 ⊛ z 819 ⊛ z 1348 ⊹
    z 11 ⊛ z 43 ⊛ z 836 ⊛ z 1348 ⊹ z 12 ⊛ z 43 ⊛ z 845 ⊛ z 1348 ⊹ me ⊛ z 3348 ⊛ (z 159 ⊹ z 9 ⊛ z
    145 ⊹ z 10 ⊛ z 126) ⊹ mf ⊛ z 1444 ⊛ (z 148 ⊹ z 9 ⊛ z 145 ⊹ z 10 ⊛ z 126) ⊹ me ⊛ z 161 ⊛ (z 9 ⊛
    z 126 ⊝ z 3333 ⊝ z 10 ⊛ z 145) ⊹ mf ⊛ z 150 ⊛ (z 9 ⊛ z 126 ⊝ z 10 ⊛ z 145 ⊝ d2 ⊛ z 43 ⊛ z
    1348)),
(3365, z 3362 ⊹ z 540 ⊛ z 3354 ⊹ z 543 ⊛ z 3349 ⊹ z 548 ⊛ z 3363 ⊹ z 922 ⊛ z 1565 ⊝ z 546 ⊛ z 3364
    ⊝ z 899 ⊛ z 1450 ⊝ z 900 ⊛ z 1514 ⊝ z 930 ⊛ z 1589),
(3366, z 803 ⊛ z 1443 ⊹ z 808 ⊛ z 1441 ⊹ z 818 ⊛ z 1443 ⊹ z 823 ⊛ z 1441 ⊹ z 834 ⊛ z 1446 ⊹ z 844
    ⊛ z 1445 ⊹ ie11 ⊛ z 75 ⊛ z 1419 ⊹ ie31 ⊛ z 75 ⊛ z 1418 ⊹ ie31 ⊛ z 79 ⊛ z 1419 ⊹ ie33 ⊛ z 79 ⊛
    z 1418 ⊹ if11 ⊛ z 93 ⊛ z 1422 ⊹ if11 ⊛ z 96 ⊛ z 1421 ⊹ me ⊛ z 3348 ⊛ (z 160 ⊹ z 9 ⊛ z 143) ⊹
    mf ⊛ z 1444 ⊛ (z 149 ⊹ z 9 ⊛ z 143) ⊹ me ⊛ z 161 ⊛ (z 3350 ⊝ z 10 ⊛ z 143) ⊹ mf ⊛ z 150 ⊛ (z
    1420 ⊝ z 10 ⊛ z 143)),
(3367, z 803 ⊛ z 1419 ⊹ z 808 ⊛ z 1418 ⊹ z 813 ⊛ z 1414 ⊹ z 818 ⊛ z 1419 ⊹ z 823 ⊛ z 1418 ⊹ z 834
    ⊛ z 1422 ⊹ z 838 ⊛ z 1414 ⊹ z 844 ⊛ z 1421 ⊹ ie11 ⊛ z 73 ⊛ z 1419 ⊹ ie22 ⊛ z 76 ⊛ z 1414 ⊹
    ie31 ⊛ z 73 ⊛ z 1418 ⊹ ie31 ⊛ z 78 ⊛ z 1419 ⊹ ie33 ⊛ z 78 ⊛ z 1418 ⊹ if11 ⊛ z 91 ⊛ z 1422 ⊹
    if11 ⊛ z 95 ⊛ z 1421 ⊹ if22 ⊛ z 76 ⊛ z 1414 ⊝ n 2 ⊛ me ⊛ (z 10 ⊛ z 143 ⊛ z 160 ⊝ z 160 ⊛ z
    3350 ⊝ z 158 ⊛ z 141 ⊛ z 1414 ⊝ z 158 ⊛ z 167 ⊛ z 1414 ⊝ z 163 ⊛ z 164 ⊛ z 1414 ⊝ z 9 ⊛ z 143
    ⊛ z 164 ⊝ z 9 ⊛ z 143 ⊛ z 3350 ⊝ z 163 ⊛ z 10 ⊛ z 143 ⊛ z 1414) ⊝ n 2 ⊛ mf ⊛ (z 10 ⊛ z 143 ⊛ z
    149 ⊝ z 149 ⊛ z 1420 ⊝ d2 ⊛ z 152 ⊛ z 1414 ⊝ d3 ⊛ z 141 ⊛ z 1414 ⊝ d3 ⊛ z 155 ⊛ z 1414 ⊝ z 9 ⊛
    z 143 ⊛ z 152 ⊝ z 9 ⊛ z 143 ⊛ z 1420 ⊝ d2 ⊛ z 10 ⊛ z 143 ⊛ z 1414)),
(3368, ie11 ⊛ z 81 ⊛ z 1419 ⊹ ie22 ⊛ z 82 ⊛ z 1414 ⊹ ie31 ⊛ z 52 ⊛ z 1419 ⊹ ie31 ⊛ z 81 ⊛ z 1418 ⊹
    ie33 ⊛ z 52 ⊛ z 1418 ⊹ if11 ⊛ z 90 ⊛ z 1422 ⊹ if11 ⊛ z 94 ⊛ z 1421 ⊹ if22 ⊛ z 82 ⊛ z 1414 ⊹ z
    43 ⊛ z 803 ⊛ z 1348 ⊹ z 43 ⊛ z 813 ⊛ z 1340 ⊹ z 43 ⊛ z 818 ⊛ z 1348 ⊹ z 43 ⊛ z 838 ⊛ z 1340 ⊹
    z 11 ⊛ z 43 ⊛ z 834 ⊛ z 1348 ⊹ z 12 ⊛ z 43 ⊛ z 844 ⊛ z 1348 ⊝ me ⊛ (z 160 ⊛ z 3333 ⊹ z 158 ⊛ z
    146 ⊛ z 1414 ⊹ z 9 ⊛ z 143 ⊛ z 3333 ⊹ z 10 ⊛ z 143 ⊛ z 159 ⊹ z 10 ⊛ z 145 ⊛ z 160 ⊹ z 163 ⊛ z
    9 ⊛ z 126 ⊛ z 1414 ⊝ z 159 ⊛ z 3350 ⊝ z 158 ⊛ z 169 ⊛ z 1414 ⊝ z 163 ⊛ z 166 ⊛ z 1414 ⊝ z 9 ⊛
    z 126 ⊛ z 160 ⊝ z 9 ⊛ z 143 ⊛ z 166 ⊝ z 9 ⊛ z 145 ⊛ z 164 ⊝ z 9 ⊛ z 145 ⊛ z 3350 ⊝ z 10 ⊛ z
    126 ⊛ z 164 ⊝ z 10 ⊛ z 126 ⊛ z 3350 ⊝ z 158 ⊛ z 43 ⊛ z 141 ⊛ z 1340 ⊝ z 158 ⊛ z 43 ⊛ z 167 ⊛ z
    1340 ⊝ z 163 ⊛ z 10 ⊛ z 145 ⊛ z 1414 ⊝ z 163 ⊛ z 43 ⊛ z 164 ⊛ z 1340 ⊝ z 163 ⊛ z 10 ⊛ z 43 ⊛ z
    143 ⊛ z 1340) ⊝ mf ⊛ (d3 ⊛ z 146 ⊛ z 1414 ⊹ z 10 ⊛ z 143 ⊛ z 148 ⊹ z 10 ⊛ z 145 ⊛ z 149 ⊹ d2 ⊛
    z 9 ⊛ z 126 ⊛ z 1414 ⊹ d2 ⊛ z 43 ⊛ z 149 ⊛ z 1348 ⊹ d2 ⊛ z 9 ⊛ z 43 ⊛ z 143 ⊛ z 1348 ⊝ z 148 ⊛
    z 1420 ⊝ d2 ⊛ z 154 ⊛ z 1414 ⊝ d3 ⊛ z 157 ⊛ z 1414 ⊝ z 9 ⊛ z 126 ⊛ z 149 ⊝ z 9 ⊛ z 143 ⊛ z 154
    ⊝ z 9 ⊛ z 145 ⊛ z 152 ⊝ z 9 ⊛ z 145 ⊛ z 1420 ⊝ z 10 ⊛ z 126 ⊛ z 152 ⊝ z 10 ⊛ z 126 ⊛ z 1420 ⊝
    d2 ⊛ z 10 ⊛ z 145 ⊛ z 1414 ⊝ d2 ⊛ z 43 ⊛ z 152 ⊛ z 1340 ⊝ d3 ⊛ z 43 ⊛ z 141 ⊛ z 1340 ⊝ d3 ⊛ z
    43 ⊛ z 155 ⊛ z 1340 ⊝ d2 ⊛ z 10 ⊛ z 43 ⊛ z 143 ⊛ z 1340)),
(3369, z 3366 ⊹ z 543 ⊛ z 3351 ⊹ z 548 ⊛ z 3367 ⊹ z 911 ⊛ z 1450 ⊹ z 920 ⊛ z 1565 ⊹ if22 ⊛ z 83 ⊛
    z 551 ⊛ z 1414 ⊝ z 540 ⊛ z 3353 ⊝ z 546 ⊛ z 3368 ⊝ z 915 ⊛ z 1514 ⊝ z 928 ⊛ z 1589 ⊝ z 934 ⊛ z
    1667),
(3370, z 3365 ⊹ z 543 ⊛ z 3352 ⊹ z 548 ⊛ z 3369 ⊹ z 551 ⊛ z 3359 ⊹ z 970 ⊛ z 1565 ⊹ z 971 ⊛ z 1450
    ⊝ z 540 ⊛ z 3355 ⊝ z 546 ⊛ z 3358 ⊝ z 967 ⊛ z 1589 ⊝ z 972 ⊛ z 1514 ⊝ z 975 ⊛ z 1667),
(3371, z 539 ⊛ z 3354 ⊹ z 542 ⊛ z 3349 ⊹ z 899 ⊛ z 1439 ⊹ z 900 ⊛ z 1512 ⊝ z 545 ⊛ z 3364 ⊝ z 922
    ⊛ z 1564),
(3372, z 542 ⊛ z 3351 ⊹ z 915 ⊛ z 1512 ⊝ z 539 ⊛ z 3353 ⊝ z 545 ⊛ z 3368 ⊝ z 911 ⊛ z 1439 ⊝ z 920
    ⊛ z 1564 ⊝ z 934 ⊛ z 1668 ⊝ if22 ⊛ z 83 ⊛ z 550 ⊛ z 1414),
(3373, z 3371 ⊹ z 543 ⊛ z 3335 ⊹ z 548 ⊛ z 3372 ⊹ z 551 ⊛ z 3343 ⊹ z 955 ⊛ z 1565 ⊹ z 957 ⊛ z 1450
    ⊝ z 540 ⊛ z 3337 ⊝ z 546 ⊛ z 3342 ⊝ z 954 ⊛ z 1589 ⊝ z 958 ⊛ z 1514 ⊝ z 961 ⊛ z 1667),
(3374, z 964 ⊛ z 3370 ⊹ z 979 ⊛ z 3344 ⊝ z 965 ⊛ z 3360 ⊝ z 978 ⊛ z 3373),
(3375, z 907 ⊛ z 1512 ⊝ z 902 ⊛ z 1564 ⊝ z 906 ⊛ z 1439),
(3376, z 965 ⊛ z 3345 ⊹ z 973 ⊛ z 3373 ⊝ z 960 ⊛ z 3370 ⊝ z 979 ⊛ z 3346),
(3377, z 983 ⊛ z 3361 ⊹ z 1003 ⊛ z 3332 ⊝ z 905 ⊛ z 3374 ⊝ z 982 ⊛ z 3376 ⊝ z 1004 ⊛ z 3375),
(3378, z 6 ⊛ (pow (z 3) 2 ⊹ pow (z 4) 2) ⊛ z 1590),
(3379, neg (z 3378) ⊛ q4p ⊝ z 3 ⊛ z 5 ⊛ z 43 ⊛ z 1590 ⊛ q3p ⊝ z 43 ⊛ z 1566 ⊛ z 271),
(3380, z 5 ⊛ (pow (z 3) 2 ⊹ pow (z 4) 2) ⊛ z 1590),
(3381, z 3380 ⊛ q4p ⊹ z 1590 ⊛ z 278 ⊹ z 43 ⊛ z 1566 ⊛ z 268 ⊝ z 3 ⊛ z 6 ⊛ z 43 ⊛ z 1590 ⊛ q3p),
(3382, z 47 ⊛ z 1590 ⊹ z 51 ⊛ z 1566),
(3383, z 48 ⊛ z 1590 ⊹ z 52 ⊛ z 1566),
(3384, ic33 ⊛ z 3383 ⊝ ic31 ⊛ z 50 ⊛ z 1566),
(3385, z 3382 ⊛ z 758 ⊹ z 3384 ⊛ z 266 ⊝ z 3383 ⊛ z 759 ⊝ ic22 ⊛ z 3382 ⊛ z 267)]

/-- _mooreriderlean2012.py:7133-7273 -/
def part61 : List (ℕ × E) := [
(3386, (z 3 ⊛ z 5 ⊛ z 31 ⊹ z 3 ⊛ z 6 ⊛ z 41 ⊝ z 4 ⊛ z 5 ⊛ z 32 ⊝ z 4 ⊛ z 6 ⊛ z 42) ⊛ z 1590),
(3387, z 5 ⊛ (z 6 ⊝ z 3 ⊛ z 42 ⊝ z 4 ⊛ z 41) ⊛ z 1590),
(3388, z 3386 ⊛ q4p ⊹ z 1566 ⊛ z 276 ⊹ z 1590 ⊛ z 275 ⊝ n 2 ⊛ z 3387 ⊛ q5p),
(3389, ic31 ⊛ z 3383 ⊝ ic11 ⊛ z 50 ⊛ z 1566),
(3390, z 3383 ⊛ z 757 ⊹ z 3389 ⊛ z 267 ⊹ z 50 ⊛ z 1566 ⊛ z 758 ⊝ z 3384 ⊛ z 265),
(3391, z 64 ⊛ z 1566 ⊹ z 65 ⊛ z 1590),
(3392, z 61 ⊛ z 1566 ⊝ z 62 ⊛ z 1590),
(3393, z 3391 ⊛ z 781 ⊹ id11 ⊛ z 3392 ⊛ z 283 ⊝ z 3392 ⊛ z 783 ⊝ id11 ⊛ z 3391 ⊛ z 281),
(3394, ic22 ⊛ z 3382 ⊛ z 265 ⊝ z 3382 ⊛ z 757 ⊝ z 3389 ⊛ z 266 ⊝ z 50 ⊛ z 1566 ⊛ z 759),
(3395, neg (z 7) ⊛ z 3378 ⊝ z 8 ⊛ z 3380),
(3396, z 3 ⊛ (z 5 ⊛ z 7 ⊝ z 6 ⊛ z 8) ⊛ z 1590),
(3397, z 3395 ⊛ q4p ⊹ z 43 ⊛ z 1566 ⊛ z 285 ⊝ z 43 ⊛ z 3396 ⊛ q3p ⊝ z 1590 ⊛ z 286),
(3398, z 3382 ⊛ z 783 ⊹ id11 ⊛ z 3391 ⊛ z 282 ⊝ z 3391 ⊛ z 782 ⊝ id22 ⊛ z 3382 ⊛ z 283),
(3399, z 7 ⊛ z 3380 ⊝ z 8 ⊛ z 3378),
(3400, z 3 ⊛ (z 5 ⊛ z 8 ⊹ z 6 ⊛ z 7) ⊛ z 1590),
(3401, z 3399 ⊛ q4p ⊹ z 1590 ⊛ z 290 ⊹ z 43 ⊛ z 1566 ⊛ z 289 ⊝ z 43 ⊛ z 3400 ⊛ q3p),
(3402, z 3392 ⊛ z 782 ⊹ id22 ⊛ z 3382 ⊛ z 281 ⊝ z 3382 ⊛ z 781 ⊝ id11 ⊛ z 3392 ⊛ z 282),
(3403, z 5 ⊛ z 10 ⊛ z 1590 ⊹ z 5 ⊛ z 9 ⊛ q5p ⊝ z 6 ⊛ z 10 ⊛ q7p),
(3404, z 4 ⊛ z 10 ⊛ q4p ⊝ z 3 ⊛ z 9 ⊛ q7p ⊝ z 3 ⊛ z 6 ⊛ z 9 ⊛ q4p ⊝ z 4 ⊛ z 3403),
(3405, z 3 ⊛ z 10 ⊛ q4p ⊹ z 4 ⊛ z 9 ⊛ q7p ⊹ z 4 ⊛ z 6 ⊛ z 9 ⊛ q4p ⊝ z 3 ⊛ z 3403),
(3406, z 4 ⊛ z 6 ⊛ z 69 ⊛ z 1590 ⊹ z 32 ⊛ z 3404 ⊹ z 1342 ⊛ z 268 ⊝ z 3 ⊛ z 6 ⊛ z 29 ⊛ z 1590 ⊝ z
    31 ⊛ z 3405 ⊝ z 1403 ⊛ z 269),
(3407, neg (z 6) ⊛ z 10 ⊛ z 1590 ⊝ z 5 ⊛ z 10 ⊛ q7p ⊝ z 6 ⊛ z 9 ⊛ q5p),
(3408, z 3 ⊛ z 5 ⊛ z 9 ⊛ q4p ⊹ z 4 ⊛ z 3407),
(3409, z 3 ⊛ z 3407 ⊝ z 4 ⊛ z 5 ⊛ z 9 ⊛ q4p),
(3410, z 5 ⊛ z 26 ⊛ z 1590 ⊹ z 5 ⊛ z 6 ⊛ z 9 ⊛ q5p ⊹ z 6 ⊛ z 3403 ⊹ z 31 ⊛ z 3408 ⊹ z 32 ⊛ z 3409
    ⊹ z 3 ⊛ z 5 ⊛ z 9 ⊛ z 268 ⊹ z 4 ⊛ z 5 ⊛ z 9 ⊛ z 269 ⊝ z 3 ⊛ z 6 ⊛ z 72 ⊛ z 1590 ⊝ z 4 ⊛ z 6 ⊛
    z 71 ⊛ z 1590),
(3411, z 5 ⊛ z 9 ⊛ z 1590 ⊝ z 5 ⊛ z 10 ⊛ q5p ⊝ z 6 ⊛ z 9 ⊛ q7p),
(3412, z 4 ⊛ z 10 ⊛ q7p ⊹ z 4 ⊛ z 6 ⊛ z 10 ⊛ q4p ⊹ z 3 ⊛ z 3411 ⊝ z 3 ⊛ z 9 ⊛ q4p),
(3413, z 6 ⊛ z 10 ⊛ q5p ⊝ z 6 ⊛ z 9 ⊛ z 1590 ⊝ z 5 ⊛ z 9 ⊛ q7p),
(3414, z 3 ⊛ z 10 ⊛ q7p ⊹ z 4 ⊛ z 9 ⊛ q4p ⊹ z 3 ⊛ z 6 ⊛ z 10 ⊛ q4p ⊝ z 4 ⊛ z 3411),
(3415, z 4 ⊛ z 6 ⊛ z 70 ⊛ z 1590 ⊹ z 10 ⊛ pow (z 5) 2 ⊛ q5p ⊹ z 32 ⊛ z 3412 ⊹ z 1401 ⊛ z 268 ⊝ z 5
    ⊛ z 23 ⊛ z 1590 ⊝ z 3 ⊛ z 6 ⊛ z 66 ⊛ z 1590 ⊝ z 6 ⊛ z 3413 ⊝ z 31 ⊛ z 3414 ⊝ z 1442 ⊛ z 269),
(3416, z 3 ⊛ z 9 ⊛ q4p ⊝ z 4 ⊛ z 10 ⊛ q7p ⊝ z 4 ⊛ z 6 ⊛ z 10 ⊛ q4p ⊝ z 3 ⊛ z 3411),
(3417, z 1590 ⊛ z 299 ⊹ q4p ⊛ z 3406 ⊹ q5p ⊛ z 3410 ⊹ q7p ⊛ z 3415 ⊹ z 43 ⊛ z 1566 ⊛ z 308 ⊹ z 43
    ⊛ q3p ⊛ z 3416),
(3418, z 3 ⊛ z 3403 ⊝ z 3 ⊛ z 10 ⊛ q4p ⊝ z 4 ⊛ z 9 ⊛ q7p ⊝ z 4 ⊛ z 6 ⊛ z 9 ⊛ q4p),
(3419, z 4 ⊛ z 3411 ⊝ z 3 ⊛ z 10 ⊛ q7p ⊝ z 4 ⊛ z 9 ⊛ q4p ⊝ z 3 ⊛ z 6 ⊛ z 10 ⊛ q4p),
(3420, z 27 ⊛ z 3418 ⊹ z 29 ⊛ z 3412 ⊹ z 30 ⊛ z 3419 ⊹ z 66 ⊛ z 3404 ⊹ z 1339 ⊛ z 313 ⊹ z 1340 ⊛ z
    310 ⊹ z 1342 ⊛ z 304 ⊹ z 1401 ⊛ z 300),
(3421, z 4 ⊛ z 3413 ⊝ z 3 ⊛ z 5 ⊛ z 10 ⊛ q4p),
(3422, z 4 ⊛ z 5 ⊛ z 10 ⊛ q4p ⊹ z 3 ⊛ z 3413),
(3423, z 24 ⊛ z 3407 ⊹ z 25 ⊛ z 3411 ⊹ z 29 ⊛ z 3421 ⊹ z 67 ⊛ z 3404 ⊹ z 1342 ⊛ z 315 ⊹ z 5 ⊛ z 9
    ⊛ z 303 ⊹ z 3 ⊛ z 5 ⊛ z 10 ⊛ z 313 ⊝ z 30 ⊛ z 3422 ⊝ z 68 ⊛ z 3418 ⊝ z 1340 ⊛ z 316 ⊝ z 6 ⊛ z
    10 ⊛ z 296 ⊝ z 4 ⊛ z 5 ⊛ z 10 ⊛ z 300),
(3424, n 2 ⊛ z 25 ⊛ z 3407 ⊹ n 2 ⊛ z 29 ⊛ z 3404 ⊹ n 2 ⊛ z 30 ⊛ z 3418 ⊹ n 2 ⊛ z 1340 ⊛ z 313 ⊹ n
    2 ⊛ z 1342 ⊛ z 300 ⊹ n 2 ⊛ z 5 ⊛ z 9 ⊛ z 296),
(3425, z 1590 ⊛ z 317 ⊹ q4p ⊛ z 3420 ⊹ q5p ⊛ z 3423 ⊹ q7p ⊛ z 3424 ⊹ z 43 ⊛ z 1566 ⊛ z 268 ⊝ z 3 ⊛
    z 6 ⊛ z 43 ⊛ z 1590 ⊛ q3p),
(3426, z 76 ⊛ z 1590 ⊹ z 82 ⊛ z 1566 ⊹ z 1397 ⊛ q4p ⊹ z 1414 ⊛ q5p ⊹ z 43 ⊛ z 1340 ⊛ q3p),
(3427, z 73 ⊛ z 1590 ⊹ z 81 ⊛ z 1566 ⊹ z 1404 ⊛ q4p ⊹ z 1419 ⊛ q5p ⊹ z 1443 ⊛ q7p ⊹ z 43 ⊛ z 1348
    ⊛ q3p),
(3428, z 52 ⊛ z 1566 ⊹ z 78 ⊛ z 1590 ⊹ z 1402 ⊛ q4p ⊹ z 1418 ⊛ q5p ⊹ z 1441 ⊛ q7p),
(3429, ie31 ⊛ z 3427 ⊹ ie33 ⊛ z 3428),
(3430, z 293 ⊛ z 3429 ⊹ z 801 ⊛ z 3426 ⊝ z 802 ⊛ z 3428 ⊝ ie22 ⊛ z 294 ⊛ z 3426),
(3431, z 3 ⊛ z 6 ⊛ z 27 ⊛ z 1590 ⊹ z 4 ⊛ z 6 ⊛ z 28 ⊛ z 1590 ⊝ z 31 ⊛ z 3416 ⊝ z 32 ⊛ z 3419 ⊝ z
    1339 ⊛ z 268 ⊝ z 1348 ⊛ z 269),
(3432, z 4 ⊛ z 5 ⊛ z 27 ⊛ z 1590 ⊹ z 5 ⊛ z 6 ⊛ z 10 ⊛ q5p ⊹ z 5 ⊛ z 3413 ⊹ z 41 ⊛ z 3419 ⊹ z 1339
    ⊛ z 273 ⊝ z 6 ⊛ z 23 ⊛ z 1590 ⊝ z 3 ⊛ z 5 ⊛ z 28 ⊛ z 1590 ⊝ z 42 ⊛ z 3416 ⊝ z 1348 ⊛ z 271),
(3433, z 1590 ⊛ z 311 ⊹ q4p ⊛ z 3431 ⊹ q5p ⊛ z 3432 ⊹ z 43 ⊛ z 1566 ⊛ z 313 ⊹ z 43 ⊛ q3p ⊛ z 3418),
(3434, ie11 ⊛ z 3427 ⊹ ie31 ⊛ z 3428),
(3435, z 294 ⊛ z 3434 ⊹ z 800 ⊛ z 3428 ⊝ z 292 ⊛ z 3429 ⊝ z 801 ⊛ z 3427),
(3436, z 94 ⊛ z 1566 ⊹ z 95 ⊛ z 1590 ⊹ z 1406 ⊛ q4p ⊹ z 1421 ⊛ q5p ⊹ z 1445 ⊛ q7p ⊹ z 12 ⊛ z 43 ⊛
    z 1348 ⊛ q3p),
(3437, z 90 ⊛ z 1566 ⊹ z 91 ⊛ z 1590 ⊹ z 1407 ⊛ q4p ⊹ z 1422 ⊛ q5p ⊹ z 1446 ⊛ q7p ⊹ z 11 ⊛ z 43 ⊛
    z 1348 ⊛ q3p),
(3438, z 830 ⊛ z 3436 ⊹ if11 ⊛ z 323 ⊛ z 3437 ⊝ z 832 ⊛ z 3437 ⊝ if11 ⊛ z 321 ⊛ z 3436),
(3439, z 802 ⊛ z 3427 ⊹ ie22 ⊛ z 292 ⊛ z 3426 ⊝ z 293 ⊛ z 3434 ⊝ z 800 ⊛ z 3426),
(3440, z 11 ⊛ z 3406 ⊝ z 11 ⊛ z 80 ⊛ z 1669 ⊝ z 12 ⊛ z 74 ⊛ z 1669 ⊝ z 11 ⊛ z 1402 ⊛ q8p ⊝ z 12 ⊛
    z 1404 ⊛ q8p ⊝ z 12 ⊛ z 3420),
(3441, z 11 ⊛ z 3410 ⊝ z 11 ⊛ z 78 ⊛ z 1669 ⊝ z 12 ⊛ z 73 ⊛ z 1669 ⊝ z 11 ⊛ z 1418 ⊛ q8p ⊝ z 12 ⊛
    z 1419 ⊛ q8p ⊝ z 12 ⊛ z 3423),
(3442, z 11 ⊛ z 3415 ⊝ z 11 ⊛ z 79 ⊛ z 1669 ⊝ z 12 ⊛ z 75 ⊛ z 1669 ⊝ z 11 ⊛ z 1441 ⊛ q8p ⊝ z 12 ⊛
    z 1443 ⊛ q8p ⊝ z 12 ⊛ z 3424),
(3443, z 3 ⊛ z 6 ⊛ z 12 ⊛ z 1590 ⊹ z 11 ⊛ z 3416 ⊝ z 11 ⊛ z 32 ⊛ z 1669 ⊝ z 12 ⊛ z 28 ⊛ z 1669 ⊝ z
    12 ⊛ z 1348 ⊛ q8p),
(3444, z 1590 ⊛ z 325 ⊹ q4p ⊛ z 3440 ⊹ q5p ⊛ z 3441 ⊹ q7p ⊛ z 3442 ⊹ z 43 ⊛ z 1566 ⊛ z 324 ⊹ z 43
    ⊛ q3p ⊛ z 3443),
(3445, z 76 ⊛ z 1590 ⊹ z 82 ⊛ z 1566 ⊹ z 83 ⊛ z 1669 ⊹ z 1397 ⊛ q4p ⊹ z 1414 ⊛ q5p ⊹ z 43 ⊛ z 1340
    ⊛ q3p),
(3446, z 832 ⊛ z 3445 ⊹ if11 ⊛ z 322 ⊛ z 3436 ⊝ z 831 ⊛ z 3436 ⊝ if22 ⊛ z 323 ⊛ z 3445),
(3447, z 11 ⊛ z 74 ⊛ z 1669 ⊹ z 11 ⊛ z 1404 ⊛ q8p ⊹ z 11 ⊛ z 3420 ⊹ z 12 ⊛ z 3406 ⊝ z 12 ⊛ z 80 ⊛
    z 1669 ⊝ z 12 ⊛ z 1402 ⊛ q8p),
(3448, z 11 ⊛ z 73 ⊛ z 1669 ⊹ z 11 ⊛ z 1419 ⊛ q8p ⊹ z 11 ⊛ z 3423 ⊹ z 12 ⊛ z 3410 ⊝ z 12 ⊛ z 78 ⊛
    z 1669 ⊝ z 12 ⊛ z 1418 ⊛ q8p),
(3449, z 11 ⊛ z 75 ⊛ z 1669 ⊹ z 11 ⊛ z 1443 ⊛ q8p ⊹ z 11 ⊛ z 3424 ⊹ z 12 ⊛ z 3415 ⊝ z 12 ⊛ z 79 ⊛
    z 1669 ⊝ z 12 ⊛ z 1441 ⊛ q8p),
(3450, z 11 ⊛ z 28 ⊛ z 1669 ⊹ z 11 ⊛ z 1348 ⊛ q8p ⊹ z 12 ⊛ z 3416 ⊝ z 12 ⊛ z 32 ⊛ z 1669 ⊝ z 3 ⊛ z
    6 ⊛ z 11 ⊛ z 1590),
(3451, z 1590 ⊛ z 330 ⊹ q4p ⊛ z 3447 ⊹ q5p ⊛ z 3448 ⊹ q7p ⊛ z 3449 ⊹ z 43 ⊛ z 1566 ⊛ z 329 ⊹ z 43
    ⊛ q3p ⊛ z 3450),
(3452, z 831 ⊛ z 3437 ⊹ if22 ⊛ z 321 ⊛ z 3445 ⊝ z 830 ⊛ z 3445 ⊝ if11 ⊛ z 322 ⊛ z 3437),
(3453, z 14 ⊛ z 3380 ⊝ z 13 ⊛ z 3378),
(3454, z 3 ⊛ (z 13 ⊛ z 5 ⊹ z 14 ⊛ z 6) ⊛ z 1590),
(3455, z 3453 ⊛ q4p ⊹ z 14 ⊛ z 1590 ⊛ z 278 ⊹ z 43 ⊛ z 1566 ⊛ z 341 ⊝ z 43 ⊛ z 3454 ⊛ q3p),
(3456, z 18 ⊛ z 3378 ⊹ z 20 ⊛ z 3380 ⊝ z 15 ⊛ z 3386),
(3457, z 3 ⊛ (z 5 ⊛ z 18 ⊝ z 6 ⊛ z 20) ⊛ z 1590),
(3458, z 3456 ⊛ q4p ⊹ z 43 ⊛ z 3457 ⊛ q3p ⊹ n 2 ⊛ z 15 ⊛ z 3387 ⊛ q5p ⊹ z 1590 ⊛ z 349 ⊹ z 43 ⊛ z
    1566 ⊛ z 348),
(3459, z 112 ⊛ z 1566 ⊹ z 114 ⊛ z 1590),
(3460, z 110 ⊛ z 1566 ⊹ z 111 ⊛ z 1590),
(3461, z 115 ⊛ z 1566 ⊹ z 116 ⊛ z 1590),
(3462, ig31 ⊛ z 3460 ⊹ ig33 ⊛ z 3461),
(3463, z 3459 ⊛ z 852 ⊹ z 3462 ⊛ z 335 ⊝ z 3461 ⊛ z 853 ⊝ ig22 ⊛ z 3459 ⊛ z 336),
(3464, z 16 ⊛ z 3378 ⊹ z 17 ⊛ z 3386 ⊹ z 19 ⊛ z 3380),
(3465, z 3 ⊛ (z 5 ⊛ z 16 ⊝ z 6 ⊛ z 19) ⊛ z 1590),
(3466, z 3464 ⊛ q4p ⊹ z 43 ⊛ z 3465 ⊛ q3p ⊹ z 1590 ⊛ z 346 ⊹ z 43 ⊛ z 1566 ⊛ z 344 ⊝ n 2 ⊛ z 17 ⊛
    z 3387 ⊛ q5p),
(3467, ig11 ⊛ z 3460 ⊹ ig31 ⊛ z 3461),
(3468, z 3461 ⊛ z 851 ⊹ z 3467 ⊛ z 336 ⊝ z 3460 ⊛ z 852 ⊝ z 3462 ⊛ z 334),
(3469, z 3460 ⊛ z 853 ⊹ ig22 ⊛ z 3459 ⊛ z 334 ⊝ z 3459 ⊛ z 851 ⊝ z 3467 ⊛ z 335),
(3470, z 1566 ⊛ (z 354 ⊹ z 3 ⊛ z 43 ⊛ z 353)),
(3471, z 1566 ⊛ (z 43 ⊛ z 352 ⊹ z 118 ⊛ z 356)),
(3472, neg (z 5) ⊛ z 3470 ⊝ z 41 ⊛ z 3471)]

/-- _mooreriderlean2012.py:7274-7377 -/
def part62 : List (ℕ × E) := [
(3473, z 3382 ⊛ (z 173 ⊛ q4p ⊹ z 174 ⊛ q5p ⊹ z 175 ⊛ q3p) ⊹ z 3472 ⊹ z 22 ⊛ z 3388 ⊹ (z 174 ⊛ z
    1590 ⊹ z 175 ⊛ z 1566) ⊛ z 266 ⊝ z 3383 ⊛ (z 170 ⊛ q4p ⊹ z 171 ⊛ q3p ⊝ z 172 ⊛ q5p) ⊝ (z 171 ⊛
    z 1566 ⊝ z 172 ⊛ z 1590) ⊛ z 267),
(3474, z 31 ⊛ z 3471 ⊝ z 6 ⊛ z 3470),
(3475, z 3474 ⊹ z 21 ⊛ z 3388 ⊹ (z 171 ⊛ z 1566 ⊝ z 172 ⊛ z 1590) ⊛ z 265 ⊝ z 3382 ⊛ (z 176 ⊛ q4p
    ⊹ z 177 ⊛ q5p ⊹ z 178 ⊛ q3p) ⊝ z 50 ⊛ z 1566 ⊛ (z 170 ⊛ q4p ⊹ z 171 ⊛ q3p ⊝ z 172 ⊛ q5p) ⊝ (z
    177 ⊛ z 1590 ⊹ z 178 ⊛ z 1566) ⊛ z 266),
(3476, z 13 ⊛ z 3473 ⊹ z 14 ⊛ z 3475),
(3477, z 3476 ⊹ l6 ⊛ z 3466 ⊝ z 3459 ⊛ (z 201 ⊛ q9p ⊹ z 202 ⊛ q3p ⊹ z 203 ⊛ q4p ⊹ z 204 ⊛ q5p) ⊝ z
    3461 ⊛ (z 197 ⊛ q3p ⊹ z 198 ⊛ q5p ⊹ z 199 ⊛ q4p ⊝ z 200 ⊛ q9p) ⊝ (z 197 ⊛ z 1566 ⊹ z 198 ⊛ z
    1590) ⊛ z 336 ⊝ (z 202 ⊛ z 1566 ⊹ z 204 ⊛ z 1590) ⊛ z 335),
(3478, neg (z 21) ⊛ z 3381 ⊝ z 22 ⊛ z 3379),
(3479, z 3383 ⊛ (z 176 ⊛ q4p ⊹ z 177 ⊛ q5p ⊹ z 178 ⊛ q3p) ⊹ z 50 ⊛ z 1566 ⊛ (z 173 ⊛ q4p ⊹ z 174 ⊛
    q5p ⊹ z 175 ⊛ q3p) ⊹ z 3478 ⊹ (z 177 ⊛ z 1590 ⊹ z 178 ⊛ z 1566) ⊛ z 267 ⊝ z 3 ⊛ z 3471 ⊝ (z
    174 ⊛ z 1590 ⊹ z 175 ⊛ z 1566) ⊛ z 265),
(3480, z 17 ⊛ z 3479 ⊹ z 19 ⊛ z 3475 ⊝ z 16 ⊛ z 3473),
(3481, l5 ⊛ z 3458 ⊝ l6 ⊛ z 3455),
(3482, z 3460 ⊛ (z 201 ⊛ q9p ⊹ z 202 ⊛ q3p ⊹ z 203 ⊛ q4p ⊹ z 204 ⊛ q5p) ⊹ z 3461 ⊛ (z 205 ⊛ q9p ⊹
    z 206 ⊛ q3p ⊹ z 207 ⊛ q4p ⊹ z 208 ⊛ q5p) ⊹ z 3480 ⊹ z 3481 ⊹ (z 202 ⊛ z 1566 ⊹ z 204 ⊛ z 1590)
    ⊛ z 334 ⊹ (z 206 ⊛ z 1566 ⊹ z 208 ⊛ z 1590) ⊛ z 336),
(3483, z 20 ⊛ z 3475 ⊝ z 15 ⊛ z 3479 ⊝ z 18 ⊛ z 3473),
(3484, z 3460 ⊛ (z 197 ⊛ q3p ⊹ z 198 ⊛ q5p ⊹ z 199 ⊛ q4p ⊝ z 200 ⊛ q9p) ⊹ z 3483 ⊹ (z 197 ⊛ z 1566
    ⊹ z 198 ⊛ z 1590) ⊛ z 334 ⊝ z 3459 ⊛ (z 205 ⊛ q9p ⊹ z 206 ⊛ q3p ⊹ z 207 ⊛ q4p ⊹ z 208 ⊛ q5p) ⊝
    l5 ⊛ z 3466 ⊝ (z 206 ⊛ z 1566 ⊹ z 208 ⊛ z 1590) ⊛ z 335),
(3485, z 3474 ⊹ (z 128 ⊛ z 1590 ⊹ z 130 ⊛ z 1566) ⊛ z 265 ⊝ z 3382 ⊛ (z 134 ⊛ q4p ⊹ z 135 ⊛ q5p ⊹
    z 136 ⊛ q3p) ⊝ z 50 ⊛ z 1566 ⊛ (z 128 ⊛ q5p ⊹ z 129 ⊛ q4p ⊹ z 130 ⊛ q3p) ⊝ l1 ⊛ z 3388 ⊝ (z
    135 ⊛ z 1590 ⊹ z 136 ⊛ z 1566) ⊛ z 266),
(3486, z 3472 ⊹ l2 ⊛ z 3388 ⊝ z 3382 ⊛ (z 131 ⊛ q4p ⊹ z 132 ⊛ q5p ⊹ z 133 ⊛ q3p) ⊝ z 3383 ⊛ (z 128
    ⊛ q5p ⊹ z 129 ⊛ q4p ⊹ z 130 ⊛ q3p) ⊝ (z 128 ⊛ z 1590 ⊹ z 130 ⊛ z 1566) ⊛ z 267 ⊝ (z 132 ⊛ z
    1590 ⊹ z 133 ⊛ z 1566) ⊛ z 266),
(3487, l1 ⊛ z 3381 ⊝ l2 ⊛ z 3379),
(3488, z 3383 ⊛ (z 134 ⊛ q4p ⊹ z 135 ⊛ q5p ⊹ z 136 ⊛ q3p) ⊹ z 3487 ⊹ (z 132 ⊛ z 1590 ⊹ z 133 ⊛ z
    1566) ⊛ z 265 ⊹ (z 135 ⊛ z 1590 ⊹ z 136 ⊛ z 1566) ⊛ z 267 ⊝ z 50 ⊛ z 1566 ⊛ (z 131 ⊛ q4p ⊹ z
    132 ⊛ q5p ⊹ z 133 ⊛ q3p) ⊝ z 3 ⊛ z 3471),
(3489, z 3474 ⊹ (z 143 ⊛ z 1590 ⊹ z 145 ⊛ z 1566) ⊛ z 265 ⊝ z 50 ⊛ z 1566 ⊛ (z 143 ⊛ q5p ⊹ z 144 ⊛
    q4p ⊹ z 145 ⊛ q3p) ⊝ d1 ⊛ z 3388),
(3490, z 158 ⊛ z 1402 ⊝ d2 ⊛ z 1404 ⊝ l4 ⊛ z 1404),
(3491, (z 159 ⊛ q3p ⊹ z 160 ⊛ q5p ⊹ z 161 ⊛ q7p ⊹ z 162 ⊛ q4p) ⊛ z 3427 ⊝ z 158 ⊛ z 3433 ⊝ (z 164
    ⊛ q5p ⊹ z 165 ⊛ q4p ⊹ z 166 ⊛ q3p) ⊛ z 3426 ⊝ (z 164 ⊛ z 1590 ⊹ z 166 ⊛ z 1566 ⊹ z 163 ⊛ z
    1397 ⊛ q4p ⊹ z 163 ⊛ z 1414 ⊛ q5p ⊹ z 163 ⊛ z 43 ⊛ z 1340 ⊛ q3p) ⊛ z 293 ⊝ (z 3333 ⊛ q3p ⊝ z
    159 ⊛ z 1566 ⊝ z 160 ⊛ z 1590 ⊝ z 3348 ⊛ q7p ⊝ z 3350 ⊛ q5p ⊝ z 3490 ⊛ q4p) ⊛ z 292),
(3492, z 3472 ⊝ z 3382 ⊛ (z 140 ⊛ q4p ⊹ z 141 ⊛ q5p ⊹ z 142 ⊛ q3p) ⊝ z 3383 ⊛ (z 143 ⊛ q5p ⊹ z 144
    ⊛ q4p ⊹ z 145 ⊛ q3p) ⊝ (z 141 ⊛ z 1590 ⊹ z 142 ⊛ z 1566) ⊛ z 266 ⊝ (z 143 ⊛ z 1590 ⊹ z 145 ⊛ z
    1566) ⊛ z 267),
(3493, d1 ⊛ z 3381 ⊹ (z 141 ⊛ z 1590 ⊹ z 142 ⊛ z 1566) ⊛ z 265 ⊝ z 50 ⊛ z 1566 ⊛ (z 140 ⊛ q4p ⊹ z
    141 ⊛ q5p ⊹ z 142 ⊛ q3p) ⊝ z 3 ⊛ z 3471),
(3494, z 158 ⊛ z 3425 ⊝ d2 ⊛ z 3417 ⊝ l4 ⊛ z 3417),
(3495, z 3494 ⊹ (z 164 ⊛ q5p ⊹ z 165 ⊛ q4p ⊹ z 166 ⊛ q3p) ⊛ z 3428 ⊹ (z 167 ⊛ q5p ⊹ z 168 ⊛ q4p ⊹
    z 169 ⊛ q3p) ⊛ z 3427 ⊹ (z 164 ⊛ z 1590 ⊹ z 166 ⊛ z 1566 ⊹ z 163 ⊛ z 1397 ⊛ q4p ⊹ z 163 ⊛ z
    1414 ⊛ q5p ⊹ z 163 ⊛ z 43 ⊛ z 1340 ⊛ q3p) ⊛ z 294 ⊹ (z 167 ⊛ z 1590 ⊹ z 169 ⊛ z 1566 ⊹ z 158 ⊛
    z 1397 ⊛ q4p ⊹ z 158 ⊛ z 1414 ⊛ q5p ⊹ z 158 ⊛ z 43 ⊛ z 1340 ⊛ q3p) ⊛ z 292),
(3496, z 163 ⊛ z 3433 ⊹ (z 3333 ⊛ q3p ⊝ z 159 ⊛ z 1566 ⊝ z 160 ⊛ z 1590 ⊝ z 3348 ⊛ q7p ⊝ z 3350 ⊛
    q5p ⊝ z 3490 ⊛ q4p) ⊛ z 294 ⊝ (z 167 ⊛ q5p ⊹ z 168 ⊛ q4p ⊹ z 169 ⊛ q3p) ⊛ z 3426 ⊝ (z 159 ⊛
    q3p ⊹ z 160 ⊛ q5p ⊹ z 161 ⊛ q7p ⊹ z 162 ⊛ q4p) ⊛ z 3428 ⊝ (z 167 ⊛ z 1590 ⊹ z 169 ⊛ z 1566 ⊹ z
    158 ⊛ z 1397 ⊛ q4p ⊹ z 158 ⊛ z 1414 ⊛ q5p ⊹ z 158 ⊛ z 43 ⊛ z 1340 ⊛ q3p) ⊛ z 293),
(3497, (z 148 ⊛ q3p ⊹ z 149 ⊛ q5p ⊹ z 150 ⊛ q7p ⊹ z 151 ⊛ q4p) ⊛ z 3427 ⊹ (z 148 ⊛ z 1566 ⊹ z 149
    ⊛ z 1590 ⊹ z 1405 ⊛ q4p ⊹ z 1420 ⊛ q5p ⊹ z 1444 ⊛ q7p ⊝ d2 ⊛ z 43 ⊛ z 1348 ⊛ q3p) ⊛ z 292 ⊝ d3
    ⊛ z 3433 ⊝ (z 152 ⊛ q5p ⊹ z 153 ⊛ q4p ⊹ z 154 ⊛ q3p) ⊛ z 3426 ⊝ (z 152 ⊛ z 1590 ⊹ z 154 ⊛ z
    1566 ⊹ d2 ⊛ z 1397 ⊛ q4p ⊹ d2 ⊛ z 1414 ⊛ q5p ⊹ d2 ⊛ z 43 ⊛ z 1340 ⊛ q3p) ⊛ z 293),
(3498, d3 ⊛ z 3425 ⊝ d2 ⊛ z 3417),
(3499, z 3498 ⊹ (z 152 ⊛ q5p ⊹ z 153 ⊛ q4p ⊹ z 154 ⊛ q3p) ⊛ z 3428 ⊹ (z 155 ⊛ q5p ⊹ z 156 ⊛ q4p ⊹
    z 157 ⊛ q3p) ⊛ z 3427 ⊹ (z 152 ⊛ z 1590 ⊹ z 154 ⊛ z 1566 ⊹ d2 ⊛ z 1397 ⊛ q4p ⊹ d2 ⊛ z 1414 ⊛
    q5p ⊹ d2 ⊛ z 43 ⊛ z 1340 ⊛ q3p) ⊛ z 294 ⊹ (z 155 ⊛ z 1590 ⊹ z 157 ⊛ z 1566 ⊹ d3 ⊛ z 1397 ⊛ q4p
    ⊹ d3 ⊛ z 1414 ⊛ q5p ⊹ d3 ⊛ z 43 ⊛ z 1340 ⊛ q3p) ⊛ z 292),
(3500, d2 ⊛ z 3433 ⊝ (z 155 ⊛ q5p ⊹ z 156 ⊛ q4p ⊹ z 157 ⊛ q3p) ⊛ z 3426 ⊝ (z 148 ⊛ q3p ⊹ z 149 ⊛
    q5p ⊹ z 150 ⊛ q7p ⊹ z 151 ⊛ q4p) ⊛ z 3428 ⊝ (z 155 ⊛ z 1590 ⊹ z 157 ⊛ z 1566 ⊹ d3 ⊛ z 1397 ⊛
    q4p ⊹ d3 ⊛ z 1414 ⊛ q5p ⊹ d3 ⊛ z 43 ⊛ z 1340 ⊛ q3p) ⊛ z 293 ⊝ (z 148 ⊛ z 1566 ⊹ z 149 ⊛ z 1590
    ⊹ z 1405 ⊛ q4p ⊹ z 1420 ⊛ q5p ⊹ z 1444 ⊛ q7p ⊝ d2 ⊛ z 43 ⊛ z 1348 ⊛ q3p) ⊛ z 294),
(3501, z 45 ⊛ z 3385 ⊹ z 46 ⊛ z 3390 ⊹ z 46 ⊛ z 3393 ⊹ z 49 ⊛ z 3394 ⊹ z 60 ⊛ z 3398 ⊹ z 63 ⊛ z
    3402 ⊹ z 74 ⊛ z 3430 ⊹ z 77 ⊛ z 3435 ⊹ z 77 ⊛ z 3438 ⊹ z 80 ⊛ z 3439 ⊹ z 92 ⊛ z 3446 ⊹ z 97 ⊛
    z 3452 ⊹ z 109 ⊛ z 3463 ⊹ z 113 ⊛ z 3468 ⊹ z 117 ⊛ z 3469 ⊹ z 1397 ⊛ z 816 ⊹ z 1397 ⊛ z 827 ⊹
    z 1397 ⊛ z 842 ⊹ z 1397 ⊛ z 849 ⊹ z 1402 ⊛ z 812 ⊹ z 1402 ⊛ z 826 ⊹ z 1402 ⊛ z 828 ⊹ z 1404 ⊛
    z 807 ⊹ z 1404 ⊛ z 821 ⊹ z 1404 ⊛ z 829 ⊹ z 1406 ⊛ z 847 ⊹ z 1406 ⊛ z 848 ⊹ z 1407 ⊛ z 837 ⊹ z
    1407 ⊛ z 850 ⊹ ic11 ⊛ z 45 ⊛ z 3379 ⊹ ic22 ⊛ z 46 ⊛ z 3388 ⊹ ic31 ⊛ z 45 ⊛ z 3381 ⊹ ic31 ⊛ z
    49 ⊛ z 3379 ⊹ ic33 ⊛ z 49 ⊛ z 3381 ⊹ id11 ⊛ z 60 ⊛ z 3397 ⊹ id11 ⊛ z 63 ⊛ z 3401 ⊹ id22 ⊛ z 46
    ⊛ z 3388 ⊹ ie11 ⊛ z 74 ⊛ z 3417 ⊹ ie22 ⊛ z 77 ⊛ z 3433 ⊹ ie31 ⊛ z 74 ⊛ z 3425 ⊹ ie31 ⊛ z 80 ⊛
    z 3417 ⊹ ie33 ⊛ z 80 ⊛ z 3425 ⊹ if11 ⊛ z 92 ⊛ z 3444 ⊹ if11 ⊛ z 97 ⊛ z 3451 ⊹ if22 ⊛ z 77 ⊛ z
    3433 ⊹ ig11 ⊛ z 109 ⊛ z 3455 ⊹ ig22 ⊛ z 113 ⊛ z 3466 ⊹ ig31 ⊛ z 109 ⊛ z 3458 ⊹ ig31 ⊛ z 117 ⊛
    z 3455 ⊹ ig33 ⊛ z 117 ⊛ z 3458 ⊹ mg ⊛ (z 209 ⊛ z 3477 ⊹ z 212 ⊛ z 3482 ⊹ z 215 ⊛ z 3484) ⊝ md
    ⊛ z 3 ⊛ z 119 ⊛ z 3471 ⊝ mc ⊛ (z 131 ⊛ z 3485 ⊝ z 134 ⊛ z 3486 ⊝ z 139 ⊛ z 3488) ⊝ me ⊛ (z 140
    ⊛ z 3489 ⊹ z 140 ⊛ z 3491 ⊹ z 168 ⊛ z 3489 ⊹ z 168 ⊛ z 3491 ⊹ z 158 ⊛ z 1397 ⊛ z 374 ⊹ z 158 ⊛
    z 1397 ⊛ z 386 ⊹ z 9 ⊛ z 162 ⊛ z 372 ⊹ z 10 ⊛ z 147 ⊛ z 384 ⊹ z 10 ⊛ z 162 ⊛ z 373 ⊹ z 10 ⊛ z
    162 ⊛ z 3492 ⊹ z 10 ⊛ z 165 ⊛ z 372 ⊹ z 10 ⊛ z 3490 ⊛ z 372 ⊝ z 147 ⊛ z 3493 ⊝ z 162 ⊛ z 3495
    ⊝ z 165 ⊛ z 3496 ⊝ z 3490 ⊛ z 384 ⊝ z 163 ⊛ z 1397 ⊛ z 385 ⊝ z 9 ⊛ z 147 ⊛ z 385 ⊝ z 9 ⊛ z 147
    ⊛ z 3495 ⊝ z 9 ⊛ z 162 ⊛ z 3493 ⊝ z 9 ⊛ z 165 ⊛ z 373 ⊝ z 9 ⊛ z 165 ⊛ z 3492 ⊝ z 9 ⊛ z 3490 ⊛
    z 373 ⊝ z 10 ⊛ z 147 ⊛ z 3496 ⊝ z 10 ⊛ z 165 ⊛ z 3493 ⊝ z 163 ⊛ z 9 ⊛ z 1397 ⊛ z 372 ⊝ z 163 ⊛
    z 10 ⊛ z 1397 ⊛ z 373) ⊝ mf ⊛ (z 140 ⊛ z 3489 ⊹ z 140 ⊛ z 3497 ⊹ z 156 ⊛ z 3489 ⊹ z 156 ⊛ z
    3497 ⊹ d3 ⊛ z 1397 ⊛ z 374 ⊹ d3 ⊛ z 1397 ⊛ z 380 ⊹ z 9 ⊛ z 151 ⊛ z 372 ⊹ z 10 ⊛ z 147 ⊛ z 378
    ⊹ z 10 ⊛ z 151 ⊛ z 373 ⊹ z 10 ⊛ z 151 ⊛ z 3492 ⊹ z 10 ⊛ z 153 ⊛ z 372 ⊹ z 10 ⊛ z 1405 ⊛ z 372
    ⊝ z 147 ⊛ z 3493 ⊝ z 151 ⊛ z 3499 ⊝ z 153 ⊛ z 3500 ⊝ z 1405 ⊛ z 378 ⊝ d2 ⊛ z 1397 ⊛ z 379 ⊝ z
    9 ⊛ z 147 ⊛ z 379 ⊝ z 9 ⊛ z 147 ⊛ z 3499 ⊝ z 9 ⊛ z 151 ⊛ z 3493 ⊝ z 9 ⊛ z 153 ⊛ z 373 ⊝ z 9 ⊛
    z 153 ⊛ z 3492 ⊝ z 9 ⊛ z 1405 ⊛ z 373 ⊝ z 10 ⊛ z 147 ⊛ z 3500 ⊝ z 10 ⊛ z 153 ⊛ z 3493 ⊝ d2 ⊛ z
    9 ⊛ z 1397 ⊛ z 372 ⊝ d2 ⊛ z 10 ⊛ z 1397 ⊛ z 373))]

/-- _mooreriderlean2012.py:7378-7461 -/
def part63 : List (ℕ × E) := [
(3502, mg ⊛ (z 182 ⊛ z 3477 ⊹ z 187 ⊛ z 3482 ⊹ z 192 ⊛ z 3484) ⊹ me ⊛ (z 120 ⊛ z 3492 ⊹ z 122 ⊛ z
    3489 ⊹ z 122 ⊛ z 3491 ⊹ z 9 ⊛ z 120 ⊛ z 3496 ⊹ z 10 ⊛ z 121 ⊛ z 384 ⊝ z 121 ⊛ z 3493 ⊝ z 9 ⊛ z
    120 ⊛ z 384 ⊝ z 9 ⊛ z 121 ⊛ z 385 ⊝ z 9 ⊛ z 121 ⊛ z 3495 ⊝ z 10 ⊛ z 120 ⊛ z 385 ⊝ z 10 ⊛ z 120
    ⊛ z 3495 ⊝ z 10 ⊛ z 121 ⊛ z 3496) ⊹ mf ⊛ (z 120 ⊛ z 3492 ⊹ z 122 ⊛ z 3489 ⊹ z 122 ⊛ z 3497 ⊹ z
    9 ⊛ z 120 ⊛ z 3500 ⊹ z 10 ⊛ z 121 ⊛ z 378 ⊝ z 121 ⊛ z 3493 ⊝ z 9 ⊛ z 120 ⊛ z 378 ⊝ z 9 ⊛ z 121
    ⊛ z 379 ⊝ z 9 ⊛ z 121 ⊛ z 3499 ⊝ z 10 ⊛ z 120 ⊛ z 379 ⊝ z 10 ⊛ z 120 ⊛ z 3499 ⊝ z 10 ⊛ z 121 ⊛
    z 3500) ⊝ md ⊛ (z 1 ⊛ z 3470 ⊝ z 2 ⊛ z 3471) ⊝ mc ⊛ (z 121 ⊛ z 3488 ⊝ z 120 ⊛ z 3486 ⊝ z 122 ⊛
    z 3485)),
(3503, z 51 ⊛ z 3390 ⊹ z 51 ⊛ z 3393 ⊹ z 52 ⊛ z 3394 ⊹ z 52 ⊛ z 3439 ⊹ z 61 ⊛ z 3398 ⊹ z 64 ⊛ z
    3402 ⊹ z 81 ⊛ z 3430 ⊹ z 82 ⊛ z 3435 ⊹ z 82 ⊛ z 3438 ⊹ z 90 ⊛ z 3446 ⊹ z 94 ⊛ z 3452 ⊹ z 110 ⊛
    z 3463 ⊹ z 112 ⊛ z 3468 ⊹ z 115 ⊛ z 3469 ⊹ ic22 ⊛ z 51 ⊛ z 3388 ⊹ ic31 ⊛ z 52 ⊛ z 3379 ⊹ ic33
    ⊛ z 52 ⊛ z 3381 ⊹ id11 ⊛ z 61 ⊛ z 3397 ⊹ id11 ⊛ z 64 ⊛ z 3401 ⊹ id22 ⊛ z 51 ⊛ z 3388 ⊹ ie11 ⊛
    z 81 ⊛ z 3417 ⊹ ie22 ⊛ z 82 ⊛ z 3433 ⊹ ie31 ⊛ z 52 ⊛ z 3417 ⊹ ie31 ⊛ z 81 ⊛ z 3425 ⊹ ie33 ⊛ z
    52 ⊛ z 3425 ⊹ if11 ⊛ z 90 ⊛ z 3444 ⊹ if11 ⊛ z 94 ⊛ z 3451 ⊹ if22 ⊛ z 82 ⊛ z 3433 ⊹ ig11 ⊛ z
    110 ⊛ z 3455 ⊹ ig22 ⊛ z 112 ⊛ z 3466 ⊹ ig31 ⊛ z 110 ⊛ z 3458 ⊹ ig31 ⊛ z 115 ⊛ z 3455 ⊹ ig33 ⊛
    z 115 ⊛ z 3458 ⊹ md ⊛ z 118 ⊛ z 3470 ⊹ z 43 ⊛ z 1340 ⊛ z 816 ⊹ z 43 ⊛ z 1340 ⊛ z 827 ⊹ z 43 ⊛
    z 1340 ⊛ z 842 ⊹ z 43 ⊛ z 1340 ⊛ z 849 ⊹ z 43 ⊛ z 1348 ⊛ z 807 ⊹ z 43 ⊛ z 1348 ⊛ z 821 ⊹ z 43
    ⊛ z 1348 ⊛ z 829 ⊹ z 11 ⊛ z 43 ⊛ z 1348 ⊛ z 837 ⊹ z 11 ⊛ z 43 ⊛ z 1348 ⊛ z 850 ⊹ z 12 ⊛ z 43 ⊛
    z 1348 ⊛ z 847 ⊹ z 12 ⊛ z 43 ⊛ z 1348 ⊛ z 848 ⊹ mc ⊛ (z 130 ⊛ z 3488 ⊹ z 137 ⊛ z 3486 ⊹ z 138
    ⊛ z 3485) ⊹ mg ⊛ (z 211 ⊛ z 3477 ⊹ z 214 ⊛ z 3482 ⊹ z 217 ⊛ z 3484) ⊝ z 50 ⊛ z 3385 ⊝ ic11 ⊛ z
    50 ⊛ z 3379 ⊝ ic31 ⊛ z 50 ⊛ z 3381 ⊝ me ⊛ (z 126 ⊛ z 3492 ⊹ z 169 ⊛ z 3489 ⊹ z 169 ⊛ z 3491 ⊹
    z 3333 ⊛ z 384 ⊹ z 9 ⊛ z 126 ⊛ z 3496 ⊹ z 9 ⊛ z 159 ⊛ z 372 ⊹ z 9 ⊛ z 3333 ⊛ z 373 ⊹ z 10 ⊛ z
    145 ⊛ z 384 ⊹ z 10 ⊛ z 159 ⊛ z 373 ⊹ z 10 ⊛ z 159 ⊛ z 3492 ⊹ z 10 ⊛ z 166 ⊛ z 372 ⊹ z 158 ⊛ z
    43 ⊛ z 1340 ⊛ z 374 ⊹ z 158 ⊛ z 43 ⊛ z 1340 ⊛ z 386 ⊝ z 145 ⊛ z 3493 ⊝ z 146 ⊛ z 3489 ⊝ z 146
    ⊛ z 3491 ⊝ z 159 ⊛ z 3495 ⊝ z 166 ⊛ z 3496 ⊝ z 9 ⊛ z 126 ⊛ z 384 ⊝ z 9 ⊛ z 145 ⊛ z 385 ⊝ z 9 ⊛
    z 145 ⊛ z 3495 ⊝ z 9 ⊛ z 159 ⊛ z 3493 ⊝ z 9 ⊛ z 166 ⊛ z 373 ⊝ z 9 ⊛ z 166 ⊛ z 3492 ⊝ z 10 ⊛ z
    126 ⊛ z 385 ⊝ z 10 ⊛ z 126 ⊛ z 3495 ⊝ z 10 ⊛ z 145 ⊛ z 3496 ⊝ z 10 ⊛ z 166 ⊛ z 3493 ⊝ z 10 ⊛ z
    3333 ⊛ z 372 ⊝ z 163 ⊛ z 43 ⊛ z 1340 ⊛ z 385 ⊝ z 163 ⊛ z 9 ⊛ z 43 ⊛ z 1340 ⊛ z 372 ⊝ z 163 ⊛ z
    10 ⊛ z 43 ⊛ z 1340 ⊛ z 373) ⊝ mf ⊛ (z 126 ⊛ z 3492 ⊹ z 157 ⊛ z 3489 ⊹ z 157 ⊛ z 3497 ⊹ z 9 ⊛ z
    126 ⊛ z 3500 ⊹ z 9 ⊛ z 148 ⊛ z 372 ⊹ z 10 ⊛ z 145 ⊛ z 378 ⊹ z 10 ⊛ z 148 ⊛ z 373 ⊹ z 10 ⊛ z
    148 ⊛ z 3492 ⊹ z 10 ⊛ z 154 ⊛ z 372 ⊹ d2 ⊛ z 43 ⊛ z 1348 ⊛ z 378 ⊹ d3 ⊛ z 43 ⊛ z 1340 ⊛ z 374
    ⊹ d3 ⊛ z 43 ⊛ z 1340 ⊛ z 380 ⊹ d2 ⊛ z 9 ⊛ z 43 ⊛ z 1348 ⊛ z 373 ⊝ z 145 ⊛ z 3493 ⊝ z 146 ⊛ z
    3489 ⊝ z 146 ⊛ z 3497 ⊝ z 148 ⊛ z 3499 ⊝ z 154 ⊛ z 3500 ⊝ z 9 ⊛ z 126 ⊛ z 378 ⊝ z 9 ⊛ z 145 ⊛
    z 379 ⊝ z 9 ⊛ z 145 ⊛ z 3499 ⊝ z 9 ⊛ z 148 ⊛ z 3493 ⊝ z 9 ⊛ z 154 ⊛ z 373 ⊝ z 9 ⊛ z 154 ⊛ z
    3492 ⊝ z 10 ⊛ z 126 ⊛ z 379 ⊝ z 10 ⊛ z 126 ⊛ z 3499 ⊝ z 10 ⊛ z 145 ⊛ z 3500 ⊝ z 10 ⊛ z 154 ⊛ z
    3493 ⊝ d2 ⊛ z 43 ⊛ z 1340 ⊛ z 379 ⊝ d2 ⊛ z 9 ⊛ z 43 ⊛ z 1340 ⊛ z 372 ⊝ d2 ⊛ z 10 ⊛ z 43 ⊛ z
    1340 ⊛ z 373 ⊝ d2 ⊛ z 10 ⊛ z 43 ⊛ z 1348 ⊛ z 372)),
(3504, z 47 ⊛ z 3390 ⊹ z 47 ⊛ z 3393 ⊹ z 48 ⊛ z 3394 ⊹ z 65 ⊛ z 3402 ⊹ z 73 ⊛ z 3430 ⊹ z 76 ⊛ z
    3435 ⊹ z 76 ⊛ z 3438 ⊹ z 78 ⊛ z 3439 ⊹ z 91 ⊛ z 3446 ⊹ z 95 ⊛ z 3452 ⊹ z 111 ⊛ z 3463 ⊹ z 114
    ⊛ z 3468 ⊹ z 116 ⊛ z 3469 ⊹ z 1414 ⊛ z 816 ⊹ z 1414 ⊛ z 827 ⊹ z 1414 ⊛ z 842 ⊹ z 1414 ⊛ z 849
    ⊹ z 1418 ⊛ z 812 ⊹ z 1418 ⊛ z 826 ⊹ z 1418 ⊛ z 828 ⊹ z 1419 ⊛ z 807 ⊹ z 1419 ⊛ z 821 ⊹ z 1419
    ⊛ z 829 ⊹ z 1421 ⊛ z 847 ⊹ z 1421 ⊛ z 848 ⊹ z 1422 ⊛ z 837 ⊹ z 1422 ⊛ z 850 ⊹ ic22 ⊛ z 47 ⊛ z
    3388 ⊹ ic31 ⊛ z 48 ⊛ z 3379 ⊹ ic33 ⊛ z 48 ⊛ z 3381 ⊹ id11 ⊛ z 65 ⊛ z 3401 ⊹ id22 ⊛ z 47 ⊛ z
    3388 ⊹ ie11 ⊛ z 73 ⊛ z 3417 ⊹ ie22 ⊛ z 76 ⊛ z 3433 ⊹ ie31 ⊛ z 73 ⊛ z 3425 ⊹ ie31 ⊛ z 78 ⊛ z
    3417 ⊹ ie33 ⊛ z 78 ⊛ z 3425 ⊹ if11 ⊛ z 91 ⊛ z 3444 ⊹ if11 ⊛ z 95 ⊛ z 3451 ⊹ if22 ⊛ z 76 ⊛ z
    3433 ⊹ ig11 ⊛ z 111 ⊛ z 3455 ⊹ ig22 ⊛ z 114 ⊛ z 3466 ⊹ ig31 ⊛ z 111 ⊛ z 3458 ⊹ ig31 ⊛ z 116 ⊛
    z 3455 ⊹ ig33 ⊛ z 116 ⊛ z 3458 ⊹ mg ⊛ (z 210 ⊛ z 3477 ⊹ z 213 ⊛ z 3482 ⊹ z 216 ⊛ z 3484) ⊝ z
    62 ⊛ z 3398 ⊝ id11 ⊛ z 62 ⊛ z 3397 ⊝ mc ⊛ (z 132 ⊛ z 3485 ⊝ z 128 ⊛ z 3488 ⊝ z 135 ⊛ z 3486) ⊝
    me ⊛ (z 141 ⊛ z 3489 ⊹ z 141 ⊛ z 3491 ⊹ z 167 ⊛ z 3489 ⊹ z 167 ⊛ z 3491 ⊹ z 158 ⊛ z 1414 ⊛ z
    374 ⊹ z 158 ⊛ z 1414 ⊛ z 386 ⊹ z 9 ⊛ z 160 ⊛ z 372 ⊹ z 10 ⊛ z 143 ⊛ z 384 ⊹ z 10 ⊛ z 160 ⊛ z
    373 ⊹ z 10 ⊛ z 160 ⊛ z 3492 ⊹ z 10 ⊛ z 164 ⊛ z 372 ⊹ z 10 ⊛ z 3350 ⊛ z 372 ⊝ z 143 ⊛ z 3493 ⊝
    z 160 ⊛ z 3495 ⊝ z 164 ⊛ z 3496 ⊝ z 3350 ⊛ z 384 ⊝ z 163 ⊛ z 1414 ⊛ z 385 ⊝ z 9 ⊛ z 143 ⊛ z
    385 ⊝ z 9 ⊛ z 143 ⊛ z 3495 ⊝ z 9 ⊛ z 160 ⊛ z 3493 ⊝ z 9 ⊛ z 164 ⊛ z 373 ⊝ z 9 ⊛ z 164 ⊛ z 3492
    ⊝ z 9 ⊛ z 3350 ⊛ z 373 ⊝ z 10 ⊛ z 143 ⊛ z 3496 ⊝ z 10 ⊛ z 164 ⊛ z 3493 ⊝ z 163 ⊛ z 9 ⊛ z 1414
    ⊛ z 372 ⊝ z 163 ⊛ z 10 ⊛ z 1414 ⊛ z 373) ⊝ mf ⊛ (z 141 ⊛ z 3489 ⊹ z 141 ⊛ z 3497 ⊹ z 155 ⊛ z
    3489 ⊹ z 155 ⊛ z 3497 ⊹ d3 ⊛ z 1414 ⊛ z 374 ⊹ d3 ⊛ z 1414 ⊛ z 380 ⊹ z 9 ⊛ z 149 ⊛ z 372 ⊹ z 10
    ⊛ z 143 ⊛ z 378 ⊹ z 10 ⊛ z 149 ⊛ z 373 ⊹ z 10 ⊛ z 149 ⊛ z 3492 ⊹ z 10 ⊛ z 152 ⊛ z 372 ⊹ z 10 ⊛
    z 1420 ⊛ z 372 ⊝ z 143 ⊛ z 3493 ⊝ z 149 ⊛ z 3499 ⊝ z 152 ⊛ z 3500 ⊝ z 1420 ⊛ z 378 ⊝ d2 ⊛ z
    1414 ⊛ z 379 ⊝ z 9 ⊛ z 143 ⊛ z 379 ⊝ z 9 ⊛ z 143 ⊛ z 3499 ⊝ z 9 ⊛ z 149 ⊛ z 3493 ⊝ z 9 ⊛ z 152
    ⊛ z 373 ⊝ z 9 ⊛ z 152 ⊛ z 3492 ⊝ z 9 ⊛ z 1420 ⊛ z 373 ⊝ z 10 ⊛ z 143 ⊛ z 3500 ⊝ z 10 ⊛ z 152 ⊛
    z 3493 ⊝ d2 ⊛ z 9 ⊛ z 1414 ⊛ z 372 ⊝ d2 ⊛ z 10 ⊛ z 1414 ⊛ z 373)),
(3505, z 83 ⊛ (z 3438 ⊹ if22 ⊛ z 3433)),
(3506, mc ⊛ (z 123 ⊛ z 3486 ⊹ z 124 ⊛ z 3488 ⊹ z 125 ⊛ z 3485) ⊹ mg ⊛ (z 183 ⊛ z 3477 ⊹ z 188 ⊛ z
    3482 ⊹ z 193 ⊛ z 3484) ⊝ md ⊛ (z 1 ⊛ z 3471 ⊹ z 2 ⊛ z 3470) ⊝ me ⊛ (z 9 ⊛ z 123 ⊛ z 384 ⊹ z 10
    ⊛ z 123 ⊛ z 385 ⊹ z 10 ⊛ z 123 ⊛ z 3495 ⊹ z 10 ⊛ z 124 ⊛ z 384 ⊝ z 123 ⊛ z 3492 ⊝ z 124 ⊛ z
    3493 ⊝ z 125 ⊛ z 3489 ⊝ z 125 ⊛ z 3491 ⊝ z 9 ⊛ z 123 ⊛ z 3496 ⊝ z 9 ⊛ z 124 ⊛ z 385 ⊝ z 9 ⊛ z
    124 ⊛ z 3495 ⊝ z 10 ⊛ z 124 ⊛ z 3496) ⊝ mf ⊛ (z 9 ⊛ z 123 ⊛ z 378 ⊹ z 10 ⊛ z 123 ⊛ z 379 ⊹ z
    10 ⊛ z 123 ⊛ z 3499 ⊹ z 10 ⊛ z 124 ⊛ z 378 ⊝ z 123 ⊛ z 3492 ⊝ z 124 ⊛ z 3493 ⊝ z 125 ⊛ z 3489
    ⊝ z 125 ⊛ z 3497 ⊝ z 9 ⊛ z 123 ⊛ z 3500 ⊝ z 9 ⊛ z 124 ⊛ z 379 ⊝ z 9 ⊛ z 124 ⊛ z 3499 ⊝ z 10 ⊛
    z 124 ⊛ z 3500)),
(3507, z 3501 ⊹ z 538 ⊛ z 3502 ⊹ z 544 ⊛ z 3503 ⊹ z 547 ⊛ z 3504 ⊹ z 549 ⊛ z 3505 ⊹ z 1517 ⊛ z 917
    ⊝ z 541 ⊛ z 3506 ⊝ z 1438 ⊛ z 913 ⊝ z 1563 ⊛ z 925 ⊝ z 1588 ⊛ z 933 ⊝ z 1666 ⊛ z 938)]

/-- _mooreriderlean2012.py:7462-7559 -/
def part64 : List (ℕ × E) := [
(3508, z 92 ⊛ z 3338 ⊹ z 97 ⊛ z 3339 ⊹ z 806 ⊛ z 1404 ⊹ z 811 ⊛ z 1402 ⊹ z 815 ⊛ z 1397 ⊹ z 817 ⊛
    z 1404 ⊹ z 822 ⊛ z 1402 ⊹ z 833 ⊛ z 1407 ⊹ z 840 ⊛ z 1397 ⊹ z 843 ⊛ z 1406 ⊹ ie11 ⊛ z 43 ⊛ z
    74 ⊛ z 1348 ⊹ ie22 ⊛ z 43 ⊛ z 77 ⊛ z 1340 ⊹ ie31 ⊛ z 43 ⊛ z 80 ⊛ z 1348 ⊹ if22 ⊛ z 43 ⊛ z 77 ⊛
    z 1340 ⊝ me ⊛ (z 162 ⊛ z 3333 ⊹ z 158 ⊛ z 146 ⊛ z 1397 ⊹ z 9 ⊛ z 147 ⊛ z 3333 ⊹ z 10 ⊛ z 145 ⊛
    z 162 ⊹ z 10 ⊛ z 147 ⊛ z 159 ⊹ z 163 ⊛ z 9 ⊛ z 126 ⊛ z 1397 ⊝ z 159 ⊛ z 3490 ⊝ z 158 ⊛ z 169 ⊛
    z 1397 ⊝ z 163 ⊛ z 166 ⊛ z 1397 ⊝ z 9 ⊛ z 126 ⊛ z 162 ⊝ z 9 ⊛ z 145 ⊛ z 165 ⊝ z 9 ⊛ z 145 ⊛ z
    3490 ⊝ z 9 ⊛ z 147 ⊛ z 166 ⊝ z 10 ⊛ z 126 ⊛ z 165 ⊝ z 10 ⊛ z 126 ⊛ z 3490 ⊝ z 158 ⊛ z 43 ⊛ z
    140 ⊛ z 1340 ⊝ z 158 ⊛ z 43 ⊛ z 168 ⊛ z 1340 ⊝ z 163 ⊛ z 10 ⊛ z 145 ⊛ z 1397 ⊝ z 163 ⊛ z 43 ⊛
    z 165 ⊛ z 1340 ⊝ z 163 ⊛ z 10 ⊛ z 43 ⊛ z 147 ⊛ z 1340) ⊝ mf ⊛ (d3 ⊛ z 146 ⊛ z 1397 ⊹ z 10 ⊛ z
    145 ⊛ z 151 ⊹ z 10 ⊛ z 147 ⊛ z 148 ⊹ d2 ⊛ z 9 ⊛ z 126 ⊛ z 1397 ⊹ d2 ⊛ z 43 ⊛ z 151 ⊛ z 1348 ⊹
    d2 ⊛ z 9 ⊛ z 43 ⊛ z 147 ⊛ z 1348 ⊝ z 148 ⊛ z 1405 ⊝ d2 ⊛ z 154 ⊛ z 1397 ⊝ d3 ⊛ z 157 ⊛ z 1397
    ⊝ z 9 ⊛ z 126 ⊛ z 151 ⊝ z 9 ⊛ z 145 ⊛ z 153 ⊝ z 9 ⊛ z 145 ⊛ z 1405 ⊝ z 9 ⊛ z 147 ⊛ z 154 ⊝ z
    10 ⊛ z 126 ⊛ z 153 ⊝ z 10 ⊛ z 126 ⊛ z 1405 ⊝ d2 ⊛ z 10 ⊛ z 145 ⊛ z 1397 ⊝ d2 ⊛ z 43 ⊛ z 153 ⊛
    z 1340 ⊝ d3 ⊛ z 43 ⊛ z 140 ⊛ z 1340 ⊝ d3 ⊛ z 43 ⊛ z 156 ⊛ z 1340 ⊝ d2 ⊛ z 10 ⊛ z 43 ⊛ z 147 ⊛
    z 1340)),
(3509, z 3508 ⊹ z 538 ⊛ z 3336 ⊹ z 544 ⊛ z 3340 ⊹ z 547 ⊛ z 3357 ⊹ z 549 ⊛ z 3341 ⊹ z 916 ⊛ z 1517
    ⊝ z 541 ⊛ z 3334 ⊝ z 912 ⊛ z 1438 ⊝ z 919 ⊛ z 1563 ⊝ z 927 ⊛ z 1588 ⊝ z 936 ⊛ z 1666),
(3510, z 1 ⊛ (pow (z 3) 2 ⊹ pow (z 4) 2) ⊛ z 1566),
(3511, z 2 ⊛ (pow (z 3) 2 ⊹ pow (z 4) 2) ⊛ z 1566),
(3512, (z 5 ⊛ z 8 ⊹ z 6 ⊛ z 7) ⊛ z 1590),
(3513, (z 5 ⊛ z 7 ⊝ z 6 ⊛ z 8) ⊛ z 1590),
(3514, rr ⊛ (z 60 ⊛ z 3512 ⊝ z 54 ⊛ z 3395 ⊝ z 55 ⊛ z 3399 ⊝ z 63 ⊛ z 3513)),
(3515, rr ⊛ (z 62 ⊛ z 3512 ⊹ z 65 ⊛ z 3513)),
(3516, rr ⊛ (z 64 ⊛ z 3513 ⊝ z 61 ⊛ z 3512 ⊝ z 43 ⊛ z 54 ⊛ z 3396 ⊝ z 43 ⊛ z 55 ⊛ z 3400)),
(3517, z 3 ⊛ u4 ⊛ z 3514 ⊹ z 1451 ⊛ z 556 ⊹ z 1518 ⊛ z 559 ⊹ z 1590 ⊛ z 565 ⊝ u1 ⊛ z 3510 ⊝ u2 ⊛ z
    3511 ⊝ z 3 ⊛ u3 ⊛ z 3516 ⊝ z 3 ⊛ u5 ⊛ z 3515 ⊝ z 1566 ⊛ z 563),
(3518, z 1 ⊛ z 5 ⊛ z 1590 ⊹ z 1 ⊛ z 31 ⊛ z 1566 ⊝ z 2 ⊛ z 6 ⊛ z 1566 ⊝ z 2 ⊛ z 4 ⊛ z 6 ⊛ z 1590),
(3519, neg (z 1) ⊛ z 6 ⊛ z 1590 ⊝ z 1 ⊛ z 41 ⊛ z 1566 ⊝ z 2 ⊛ z 5 ⊛ z 1566 ⊝ z 2 ⊛ z 4 ⊛ z 5 ⊛ z
    1590),
(3520, z 9 ⊛ z 3519 ⊹ z 10 ⊛ z 121 ⊛ q7p ⊝ z 1 ⊛ z 3 ⊛ z 10 ⊛ z 1566 ⊝ z 9 ⊛ z 120 ⊛ q7p ⊝ z 9 ⊛ z
    554 ⊝ z 10 ⊛ z 570),
(3521, z 9 ⊛ z 121 ⊛ q7p ⊹ z 10 ⊛ z 120 ⊛ q7p ⊹ z 10 ⊛ z 554 ⊝ z 10 ⊛ z 3519 ⊝ z 1 ⊛ z 3 ⊛ z 9 ⊛ z
    1566 ⊝ z 9 ⊛ z 570),
(3522, z 6 ⊛ z 3518 ⊹ z 5 ⊛ z 122 ⊛ z 1590 ⊹ z 23 ⊛ z 3520 ⊹ z 233 ⊛ z 3413 ⊹ z 238 ⊛ z 305 ⊝ z 25
    ⊛ z 3521 ⊝ z 238 ⊛ z 3407 ⊝ z 1433 ⊛ z 296 ⊝ z 5 ⊛ z 9 ⊛ z 572 ⊝ z 5 ⊛ z 10 ⊛ z 571),
(3523, z 1 ⊛ z 6 ⊛ z 1566 ⊹ z 2 ⊛ z 5 ⊛ z 1590 ⊹ z 2 ⊛ z 31 ⊛ z 1566 ⊹ z 1 ⊛ z 4 ⊛ z 6 ⊛ z 1590),
(3524, z 1 ⊛ z 5 ⊛ z 1566 ⊹ z 1 ⊛ z 4 ⊛ z 5 ⊛ z 1590 ⊝ z 2 ⊛ z 6 ⊛ z 1590 ⊝ z 2 ⊛ z 41 ⊛ z 1566),
(3525, z 9 ⊛ z 3524 ⊹ z 9 ⊛ z 557 ⊝ z 2 ⊛ z 3 ⊛ z 10 ⊛ z 1566 ⊝ z 9 ⊛ z 123 ⊛ q7p ⊝ z 10 ⊛ z 124 ⊛
    q7p ⊝ z 10 ⊛ z 575),
(3526, z 10 ⊛ z 123 ⊛ q7p ⊝ z 10 ⊛ z 3524 ⊝ z 2 ⊛ z 3 ⊛ z 9 ⊛ z 1566 ⊝ z 9 ⊛ z 124 ⊛ q7p ⊝ z 9 ⊛ z
    575 ⊝ z 10 ⊛ z 557),
(3527, z 6 ⊛ z 3523 ⊹ z 5 ⊛ z 125 ⊛ z 1590 ⊹ z 23 ⊛ z 3525 ⊹ z 234 ⊛ z 3413 ⊹ z 239 ⊛ z 305 ⊝ z 25
    ⊛ z 3526 ⊝ z 239 ⊛ z 3407 ⊝ z 1391 ⊛ z 296 ⊝ z 5 ⊛ z 9 ⊛ z 577 ⊝ z 5 ⊛ z 10 ⊛ z 576),
(3528, z 31 ⊛ z 3407 ⊹ z 5 ⊛ z 9 ⊛ z 269 ⊝ z 5 ⊛ z 29 ⊛ z 1590 ⊝ z 4 ⊛ z 6 ⊛ z 25 ⊛ z 1590 ⊝ z 5 ⊛
    z 1342 ⊛ q5p ⊝ z 6 ⊛ z 3404),
(3529, z 23 ⊛ z 3404 ⊹ z 25 ⊛ z 3419 ⊹ z 27 ⊛ z 3407 ⊹ z 29 ⊛ z 3413 ⊹ z 1339 ⊛ z 296 ⊹ z 1342 ⊛ z
    305 ⊹ z 5 ⊛ z 9 ⊛ z 310 ⊝ z 5 ⊛ z 10 ⊛ z 300),
(3530, n 2 ⊛ z 33 ⊛ z 3528 ⊹ n 2 ⊛ z 34 ⊛ z 3529 ⊹ n 2 ⊛ z 1343 ⊛ z 579 ⊹ n 2 ⊛ z 1344 ⊛ z 580),
(3531, (n 2 ⊛ z 33 ⊛ z 1345 ⊛ z 581 ⊘ z 35 ⊹ z 36 ⊛ (n 4 ⊛ z 36 ⊛ z 3528 ⊹ (z 33 ⊛ z 1345 ⊛ z 581
    ⊝ n 2 ⊛ z 33 ⊛ z 35 ⊛ z 3530 ⊝ n 2 ⊛ z 35 ⊛ z 1344 ⊛ z 581 ⊝ n 2 ⊛ z 35 ⊛ z 1345 ⊛ z 580) ⊘
    hpow (z 35) 3)) ⊘ pow (z 36) 3),
(3532, z 39 ⊛ z 43 ⊛ z 3418 ⊹ qt 1 ⊛ rf ⊛ z 82 ⊛ z 3531 ⊹ qt 2 ⊛ rf ⊛ z 43 ⊛ z 1340 ⊛ z 584 ⊹ qt 2
    ⊛ rf ⊛ z 43 ⊛ z 1350 ⊛ z 313),
(3533, neg (z 5) ⊛ z 118 ⊛ z 1590 ⊝ z 3532 ⊝ d3 ⊛ z 43 ⊛ z 3418),
(3534, d1 ⊛ z 3 ⊛ z 6 ⊛ z 43 ⊛ z 1590),
(3535, z 6 ⊛ z 9 ⊛ z 118 ⊛ z 1590 ⊹ z 9 ⊛ z 126 ⊛ q7p ⊹ z 9 ⊛ z 609 ⊹ z 10 ⊛ z 610 ⊹ d2 ⊛ z 43 ⊛ z
    3418 ⊝ z 10 ⊛ z 3534 ⊝ z 10 ⊛ z 145 ⊛ q7p),
(3536, (n 2 ⊛ z 34 ⊛ z 1345 ⊛ z 581 ⊘ z 35 ⊹ z 36 ⊛ (n 4 ⊛ z 36 ⊛ z 3529 ⊹ (z 34 ⊛ z 1345 ⊛ z 581
    ⊝ n 2 ⊛ z 34 ⊛ z 35 ⊛ z 3530 ⊝ n 2 ⊛ z 35 ⊛ z 1343 ⊛ z 581 ⊝ n 2 ⊛ z 35 ⊛ z 1345 ⊛ z 579) ⊘
    hpow (z 35) 3)) ⊘ pow (z 36) 3),
(3537, z 40 ⊛ z 43 ⊛ z 3418 ⊹ qt 1 ⊛ rf ⊛ z 82 ⊛ z 3536 ⊹ qt 2 ⊛ rf ⊛ z 43 ⊛ z 1340 ⊛ z 582 ⊹ qt 2
    ⊛ rf ⊛ z 43 ⊛ z 1346 ⊛ z 313),
(3538, z 43 ⊛ (d3 ⊛ z 3 ⊛ z 6 ⊛ z 1590 ⊹ d2 ⊛ z 3416)),
(3539, z 9 ⊛ z 610 ⊝ z 9 ⊛ z 3534 ⊝ z 6 ⊛ z 10 ⊛ z 118 ⊛ z 1590 ⊝ z 9 ⊛ z 145 ⊛ q7p ⊝ z 10 ⊛ z 126
    ⊛ q7p ⊝ z 3538 ⊝ z 10 ⊛ z 609),
(3540, z 12 ⊛ z 40 ⊛ z 90 ⊛ z 1669 ⊹ qt 2 ⊛ rf ⊛ z 12 ⊛ z 90 ⊛ z 1346 ⊛ q8p ⊹ z 11 ⊛ z 39 ⊛ z 43 ⊛
    z 3450 ⊹ qt 1 ⊛ rf ⊛ z 11 ⊛ z 94 ⊛ z 3531 ⊹ qt 2 ⊛ rf ⊛ z 11 ⊛ z 43 ⊛ z 1350 ⊛ z 329 ⊝ z 11 ⊛
    z 39 ⊛ z 90 ⊛ z 1669 ⊝ z 11 ⊛ z 40 ⊛ z 94 ⊛ z 1669 ⊝ z 12 ⊛ z 39 ⊛ z 94 ⊛ z 1669 ⊝ qt 2 ⊛ rf ⊛
    z 11 ⊛ z 90 ⊛ z 1350 ⊛ q8p ⊝ qt 2 ⊛ rf ⊛ z 11 ⊛ z 94 ⊛ z 1346 ⊛ q8p ⊝ qt 2 ⊛ rf ⊛ z 12 ⊛ z 94
    ⊛ z 1350 ⊛ q8p ⊝ z 39 ⊛ z 43 ⊛ z 1348 ⊛ pow (z 11) 2 ⊛ q8p ⊝ z 39 ⊛ z 43 ⊛ z 1348 ⊛ pow (z 12)
    2 ⊛ q8p ⊝ z 11 ⊛ z 40 ⊛ z 43 ⊛ z 3443 ⊝ z 12 ⊛ z 39 ⊛ z 43 ⊛ z 3443 ⊝ z 12 ⊛ z 40 ⊛ z 43 ⊛ z
    3450 ⊝ qt 1 ⊛ rf ⊛ z 11 ⊛ z 90 ⊛ z 3536 ⊝ qt 1 ⊛ rf ⊛ z 12 ⊛ z 90 ⊛ z 3531 ⊝ qt 1 ⊛ rf ⊛ z 12
    ⊛ z 94 ⊛ z 3536 ⊝ qt 2 ⊛ rf ⊛ z 11 ⊛ z 43 ⊛ z 1346 ⊛ z 324 ⊝ qt 2 ⊛ rf ⊛ z 12 ⊛ z 43 ⊛ z 1346
    ⊛ z 329 ⊝ qt 2 ⊛ rf ⊛ z 12 ⊛ z 43 ⊛ z 1350 ⊛ z 324 ⊝ qt 2 ⊛ rf ⊛ z 43 ⊛ z 1348 ⊛ pow (z 11) 2
    ⊛ z 582 ⊝ qt 2 ⊛ rf ⊛ z 43 ⊛ z 1348 ⊛ pow (z 12) 2 ⊛ z 582),
(3541, z 5 ⊛ z 262 ⊛ z 1590 ⊹ z 5 ⊛ z 1353 ⊛ q5p ⊹ z 6 ⊛ z 3533 ⊹ z 257 ⊛ z 3413 ⊹ (z 1341 ⊹ z
    1347) ⊛ z 305 ⊹ z 23 ⊛ (z 3535 ⊹ z 3537) ⊝ z 259 ⊛ z 3407 ⊝ (z 1349 ⊹ z 1351) ⊛ z 296 ⊝ z 25 ⊛
    (z 3539 ⊹ z 3540) ⊝ z 5 ⊛ z 9 ⊛ (z 614 ⊹ z 615) ⊝ z 5 ⊛ z 10 ⊛ (z 611 ⊹ z 612)),
(3542, d1 ⊛ z 10 ⊛ z 3380 ⊹ d2 ⊛ z 3431 ⊹ d1 ⊛ z 9 ⊛ z 279 ⊝ z 10 ⊛ z 147 ⊛ q7p),
(3543, z 40 ⊛ z 3431 ⊹ qt 1 ⊛ rf ⊛ z 77 ⊛ z 3536 ⊹ qt 2 ⊛ rf ⊛ z 1346 ⊛ z 312 ⊹ qt 2 ⊛ rf ⊛ z 1397
    ⊛ z 582),
(3544, neg d1 ⊛ z 3386 ⊝ d3 ⊛ z 3431),
(3545, z 39 ⊛ z 3431 ⊹ qt 1 ⊛ rf ⊛ z 77 ⊛ z 3531 ⊹ qt 2 ⊛ rf ⊛ z 1350 ⊛ z 312 ⊹ qt 2 ⊛ rf ⊛ z 1397
    ⊛ z 584),
(3546, d3 ⊛ z 3420 ⊝ d2 ⊛ z 3406),
(3547, d1 ⊛ z 9 ⊛ z 3380 ⊹ z 3546 ⊝ z 9 ⊛ z 147 ⊛ q7p ⊝ d1 ⊛ z 10 ⊛ z 279)]

/-- _mooreriderlean2012.py:7560-7658 -/
def part65 : List (ℕ × E) := [
(3548, z 12 ⊛ z 40 ⊛ z 92 ⊛ z 1669 ⊹ z 12 ⊛ z 40 ⊛ z 1407 ⊛ q8p ⊹ qt 2 ⊛ rf ⊛ z 12 ⊛ z 92 ⊛ z 1346
    ⊛ q8p ⊹ z 11 ⊛ z 39 ⊛ z 3447 ⊹ qt 1 ⊛ rf ⊛ z 11 ⊛ z 97 ⊛ z 3531 ⊹ qt 2 ⊛ rf ⊛ z 11 ⊛ z 1350 ⊛
    z 332 ⊹ qt 2 ⊛ rf ⊛ z 11 ⊛ z 1406 ⊛ z 584 ⊝ z 11 ⊛ z 39 ⊛ z 92 ⊛ z 1669 ⊝ z 11 ⊛ z 40 ⊛ z 97 ⊛
    z 1669 ⊝ z 12 ⊛ z 39 ⊛ z 97 ⊛ z 1669 ⊝ z 11 ⊛ z 39 ⊛ z 1407 ⊛ q8p ⊝ z 11 ⊛ z 40 ⊛ z 1406 ⊛ q8p
    ⊝ z 12 ⊛ z 39 ⊛ z 1406 ⊛ q8p ⊝ qt 2 ⊛ rf ⊛ z 11 ⊛ z 92 ⊛ z 1350 ⊛ q8p ⊝ qt 2 ⊛ rf ⊛ z 11 ⊛ z
    97 ⊛ z 1346 ⊛ q8p ⊝ qt 2 ⊛ rf ⊛ z 12 ⊛ z 97 ⊛ z 1350 ⊛ q8p ⊝ z 11 ⊛ z 40 ⊛ z 3440 ⊝ z 12 ⊛ z
    39 ⊛ z 3440 ⊝ z 12 ⊛ z 40 ⊛ z 3447 ⊝ qt 2 ⊛ rf ⊛ z 11 ⊛ z 1346 ⊛ z 326 ⊝ qt 2 ⊛ rf ⊛ z 11 ⊛ z
    1407 ⊛ z 582 ⊝ qt 2 ⊛ rf ⊛ z 12 ⊛ z 1346 ⊛ z 332 ⊝ qt 2 ⊛ rf ⊛ z 12 ⊛ z 1350 ⊛ z 326 ⊝ qt 2 ⊛
    rf ⊛ z 12 ⊛ z 1406 ⊛ z 582 ⊝ qt 2 ⊛ rf ⊛ z 12 ⊛ z 1407 ⊛ z 584 ⊝ qt 1 ⊛ rf ⊛ z 11 ⊛ z 92 ⊛ z
    3536 ⊝ qt 1 ⊛ rf ⊛ z 12 ⊛ z 92 ⊛ z 3531 ⊝ qt 1 ⊛ rf ⊛ z 12 ⊛ z 97 ⊛ z 3536),
(3549, z 5 ⊛ z 263 ⊛ z 1590 ⊹ z 256 ⊛ z 3413 ⊹ (z 1399 ⊹ z 1400) ⊛ z 305 ⊹ z 23 ⊛ (z 3542 ⊹ z
    3543) ⊹ z 6 ⊛ (z 3544 ⊝ z 3545) ⊝ z 5 ⊛ (z 1398 ⊹ d3 ⊛ z 1397) ⊛ q5p ⊝ z 261 ⊛ z 3407 ⊝ z 1409
    ⊛ z 296 ⊝ z 25 ⊛ (z 3547 ⊹ z 3548) ⊝ z 5 ⊛ z 9 ⊛ (z 600 ⊹ z 601) ⊝ z 5 ⊛ z 10 ⊛ (z 597 ⊹ z
    598)),
(3550, d2 ⊛ z 3432 ⊹ d1 ⊛ z 9 ⊛ z 278 ⊝ z 10 ⊛ z 143 ⊛ q7p),
(3551, z 40 ⊛ z 3432 ⊹ qt 1 ⊛ rf ⊛ z 76 ⊛ z 3536 ⊹ qt 2 ⊛ rf ⊛ z 1346 ⊛ z 311 ⊹ qt 2 ⊛ rf ⊛ z 1414
    ⊛ z 582),
(3552, n 2 ⊛ d1 ⊛ z 3387 ⊝ d3 ⊛ z 3432),
(3553, z 39 ⊛ z 3432 ⊹ qt 1 ⊛ rf ⊛ z 76 ⊛ z 3531 ⊹ qt 2 ⊛ rf ⊛ z 1350 ⊛ z 311 ⊹ qt 2 ⊛ rf ⊛ z 1414
    ⊛ z 584),
(3554, d3 ⊛ z 3423 ⊝ d2 ⊛ z 3410),
(3555, z 3554 ⊝ z 9 ⊛ z 143 ⊛ q7p ⊝ d1 ⊛ z 10 ⊛ z 278),
(3556, z 12 ⊛ z 40 ⊛ z 91 ⊛ z 1669 ⊹ z 12 ⊛ z 40 ⊛ z 1422 ⊛ q8p ⊹ qt 2 ⊛ rf ⊛ z 12 ⊛ z 91 ⊛ z 1346
    ⊛ q8p ⊹ z 11 ⊛ z 39 ⊛ z 3448 ⊹ qt 1 ⊛ rf ⊛ z 11 ⊛ z 95 ⊛ z 3531 ⊹ qt 2 ⊛ rf ⊛ z 11 ⊛ z 1350 ⊛
    z 330 ⊹ qt 2 ⊛ rf ⊛ z 11 ⊛ z 1421 ⊛ z 584 ⊝ z 11 ⊛ z 39 ⊛ z 91 ⊛ z 1669 ⊝ z 11 ⊛ z 40 ⊛ z 95 ⊛
    z 1669 ⊝ z 12 ⊛ z 39 ⊛ z 95 ⊛ z 1669 ⊝ z 11 ⊛ z 39 ⊛ z 1422 ⊛ q8p ⊝ z 11 ⊛ z 40 ⊛ z 1421 ⊛ q8p
    ⊝ z 12 ⊛ z 39 ⊛ z 1421 ⊛ q8p ⊝ qt 2 ⊛ rf ⊛ z 11 ⊛ z 91 ⊛ z 1350 ⊛ q8p ⊝ qt 2 ⊛ rf ⊛ z 11 ⊛ z
    95 ⊛ z 1346 ⊛ q8p ⊝ qt 2 ⊛ rf ⊛ z 12 ⊛ z 95 ⊛ z 1350 ⊛ q8p ⊝ z 11 ⊛ z 40 ⊛ z 3441 ⊝ z 12 ⊛ z
    39 ⊛ z 3441 ⊝ z 12 ⊛ z 40 ⊛ z 3448 ⊝ qt 2 ⊛ rf ⊛ z 11 ⊛ z 1346 ⊛ z 325 ⊝ qt 2 ⊛ rf ⊛ z 11 ⊛ z
    1422 ⊛ z 582 ⊝ qt 2 ⊛ rf ⊛ z 12 ⊛ z 1346 ⊛ z 330 ⊝ qt 2 ⊛ rf ⊛ z 12 ⊛ z 1350 ⊛ z 325 ⊝ qt 2 ⊛
    rf ⊛ z 12 ⊛ z 1421 ⊛ z 582 ⊝ qt 2 ⊛ rf ⊛ z 12 ⊛ z 1422 ⊛ z 584 ⊝ qt 1 ⊛ rf ⊛ z 11 ⊛ z 91 ⊛ z
    3536 ⊝ qt 1 ⊛ rf ⊛ z 12 ⊛ z 91 ⊛ z 3531 ⊝ qt 1 ⊛ rf ⊛ z 12 ⊛ z 95 ⊛ z 3536),
(3557, z 5 ⊛ z 264 ⊛ z 1590 ⊹ z 255 ⊛ z 3413 ⊹ (z 1416 ⊹ z 1417) ⊛ z 305 ⊹ z 23 ⊛ (z 3550 ⊹ z
    3551) ⊹ z 6 ⊛ (z 3552 ⊝ z 3553) ⊝ z 5 ⊛ (z 1415 ⊹ d3 ⊛ z 1414) ⊛ q5p ⊝ z 260 ⊛ z 3407 ⊝ z 1424
    ⊛ z 296 ⊝ z 25 ⊛ (z 3555 ⊹ z 3556) ⊝ z 5 ⊛ z 9 ⊛ (z 592 ⊹ z 593) ⊝ z 5 ⊛ z 10 ⊛ (z 589 ⊹ z
    590)),
(3558, z 254 ⊛ z 3413 ⊹ qt 1 ⊛ rf ⊛ z 23 ⊛ z 83 ⊛ z 3536 ⊹ qt 2 ⊛ rf ⊛ z 83 ⊛ z 1346 ⊛ z 305 ⊝ z 5
    ⊛ z 250 ⊛ z 1590 ⊝ qt 2 ⊛ rf ⊛ z 5 ⊛ z 83 ⊛ z 1350 ⊛ q5p ⊝ qt 2 ⊛ z 5 ⊛ z 10 ⊛ z 583 ⊝ qt 1 ⊛
    rf ⊛ z 6 ⊛ z 83 ⊛ z 3531),
(3559, d3 ⊛ z 3424 ⊝ d2 ⊛ z 3415),
(3560, z 12 ⊛ z 40 ⊛ z 93 ⊛ z 1669 ⊹ z 12 ⊛ z 40 ⊛ z 1446 ⊛ q8p ⊹ qt 2 ⊛ rf ⊛ z 12 ⊛ z 93 ⊛ z 1346
    ⊛ q8p ⊹ z 11 ⊛ z 39 ⊛ z 3449 ⊹ qt 1 ⊛ rf ⊛ z 11 ⊛ z 96 ⊛ z 3531 ⊹ qt 2 ⊛ rf ⊛ z 11 ⊛ z 1350 ⊛
    z 331 ⊹ qt 2 ⊛ rf ⊛ z 11 ⊛ z 1445 ⊛ z 584 ⊝ z 11 ⊛ z 39 ⊛ z 93 ⊛ z 1669 ⊝ z 11 ⊛ z 40 ⊛ z 96 ⊛
    z 1669 ⊝ z 12 ⊛ z 39 ⊛ z 96 ⊛ z 1669 ⊝ z 11 ⊛ z 39 ⊛ z 1446 ⊛ q8p ⊝ z 11 ⊛ z 40 ⊛ z 1445 ⊛ q8p
    ⊝ z 12 ⊛ z 39 ⊛ z 1445 ⊛ q8p ⊝ qt 2 ⊛ rf ⊛ z 11 ⊛ z 93 ⊛ z 1350 ⊛ q8p ⊝ qt 2 ⊛ rf ⊛ z 11 ⊛ z
    96 ⊛ z 1346 ⊛ q8p ⊝ qt 2 ⊛ rf ⊛ z 12 ⊛ z 96 ⊛ z 1350 ⊛ q8p ⊝ z 11 ⊛ z 40 ⊛ z 3442 ⊝ z 12 ⊛ z
    39 ⊛ z 3442 ⊝ z 12 ⊛ z 40 ⊛ z 3449 ⊝ qt 2 ⊛ rf ⊛ z 11 ⊛ z 1346 ⊛ z 327 ⊝ qt 2 ⊛ rf ⊛ z 11 ⊛ z
    1446 ⊛ z 582 ⊝ qt 2 ⊛ rf ⊛ z 12 ⊛ z 1346 ⊛ z 331 ⊝ qt 2 ⊛ rf ⊛ z 12 ⊛ z 1350 ⊛ z 327 ⊝ qt 2 ⊛
    rf ⊛ z 12 ⊛ z 1445 ⊛ z 582 ⊝ qt 2 ⊛ rf ⊛ z 12 ⊛ z 1446 ⊛ z 584 ⊝ qt 1 ⊛ rf ⊛ z 11 ⊛ z 93 ⊛ z
    3536 ⊝ qt 1 ⊛ rf ⊛ z 12 ⊛ z 93 ⊛ z 3531 ⊝ qt 1 ⊛ rf ⊛ z 12 ⊛ z 96 ⊛ z 3536),
(3561, z 258 ⊛ z 3407 ⊹ (z 1444 ⊹ z 1447) ⊛ z 296 ⊹ z 25 ⊛ (z 3559 ⊹ z 3560) ⊹ z 5 ⊛ z 9 ⊛ (z 617
    ⊹ z 618)),
(3562, u1 ⊛ z 3522 ⊹ u2 ⊛ z 3527 ⊹ u3 ⊛ z 3541 ⊹ u4 ⊛ z 3549 ⊹ u5 ⊛ z 3557 ⊹ u8 ⊛ z 3558 ⊹ z 1451
    ⊛ z 573 ⊹ z 1518 ⊛ z 578 ⊹ z 1566 ⊛ z 616 ⊹ z 1590 ⊛ z 594 ⊹ z 1669 ⊛ z 586 ⊝ u7 ⊛ z 3561),
(3563, rr ⊛ u4 ⊛ z 3386 ⊹ z 1 ⊛ u2 ⊛ z 1566 ⊹ z 1 ⊛ z 1518 ⊛ q3p ⊹ z 1566 ⊛ z 552 ⊹ rr ⊛ z 1590 ⊛
    z 275 ⊝ n 2 ⊛ rr ⊛ u5 ⊛ z 3387 ⊝ z 2 ⊛ u1 ⊛ z 1566 ⊝ z 2 ⊛ z 1451 ⊛ q3p),
(3564, z 25 ⊛ z 3528 ⊹ z 33 ⊛ z 3407 ⊹ z 1344 ⊛ z 296 ⊹ z 5 ⊛ z 9 ⊛ z 580),
(3565, (qt 6 ⊛ z 416 ⊛ z 1345 ⊛ z 581 ⊹ z 35 ⊛ (n 2 ⊛ z 35 ⊛ z 3564 ⊝ z 416 ⊛ z 3530 ⊝ z 1345 ⊛ z
    630 ⊝ z 1365 ⊛ z 581)) ⊘ hpow (z 35) 5),
(3566, (n 2 ⊛ z 1345 ⊛ (z 36 ⊛ (z 33 ⊛ z 631 ⊹ n 2 ⊛ z 420 ⊛ z 580) ⊹ (z 25 ⊛ z 36 ⊝ n 3 ⊛ z 33 ⊛
    z 420) ⊛ z 581 ⊘ hpow (z 35) 1) ⊘ hpow (z 35) 1 ⊹ z 36 ⊛ (n 2 ⊛ z 36 ⊛ (n 2 ⊛ z 36 ⊛ z 3407 ⊝
    n 2 ⊛ z 420 ⊛ z 3528 ⊝ z 33 ⊛ z 3565 ⊝ z 1344 ⊛ z 631 ⊝ z 1366 ⊛ z 580 ⊝ z 1345 ⊛ z 296 ⊘ hpow
    (z 35) 1) ⊝ (n 2 ⊛ z 35 ⊛ (z 25 ⊛ z 36 ⊝ n 2 ⊛ z 33 ⊛ z 420) ⊛ z 3530 ⊝ z 1345 ⊛ (z 25 ⊛ z 36
    ⊝ n 2 ⊛ z 33 ⊛ z 420) ⊛ z 581 ⊝ n 2 ⊛ z 35 ⊛ (z 33 ⊛ z 1366 ⊹ n 2 ⊛ z 420 ⊛ z 1344 ⊝ z 5 ⊛ z 9
    ⊛ z 36) ⊛ z 581) ⊘ hpow (z 35) 3)) ⊘ pow (z 36) 4),
(3567, (n 3 ⊛ z 34 ⊛ z 420 ⊛ z 1345 ⊛ z 581 ⊘ z 35 ⊹ z 36 ⊛ (z 34 ⊛ z 36 ⊛ z 3565 ⊹ z 36 ⊛ z 1343
    ⊛ z 631 ⊹ z 36 ⊛ z 1366 ⊛ z 579 ⊹ n 2 ⊛ z 36 ⊛ z 420 ⊛ z 3529 ⊹ (z 34 ⊛ z 420 ⊛ z 1345 ⊛ z 581
    ⊝ n 2 ⊛ z 34 ⊛ z 35 ⊛ z 420 ⊛ z 3530 ⊝ n 2 ⊛ z 35 ⊛ z 420 ⊛ z 1343 ⊛ z 581 ⊝ n 2 ⊛ z 35 ⊛ z
    420 ⊛ z 1345 ⊛ z 579 ⊝ z 34 ⊛ z 35 ⊛ z 1345 ⊛ z 631 ⊝ z 34 ⊛ z 35 ⊛ z 1366 ⊛ z 581) ⊘ hpow (z
    35) 3)) ⊘ pow (z 36) 4),
(3568, z 3 ⊛ z 6 ⊛ z 434 ⊛ z 1590 ⊹ z 443 ⊛ z 3416 ⊹ qt 1 ⊛ rf ⊛ z 28 ⊛ z 3566 ⊝ qt 2 ⊛ rf ⊛ z 32
    ⊛ z 3567 ⊝ qt 2 ⊛ rf ⊛ z 1348 ⊛ z 632 ⊝ qt 2 ⊛ rf ⊛ z 1367 ⊛ z 308 ⊝ qt 2 ⊛ rf ⊛ z 1368 ⊛ z
    268),
(3569, z 25 ⊛ z 3529 ⊹ z 34 ⊛ z 3407 ⊹ z 1343 ⊛ z 296 ⊹ z 5 ⊛ z 9 ⊛ z 579),
(3570, (qt 6 ⊛ z 412 ⊛ z 1345 ⊛ z 581 ⊹ z 35 ⊛ (n 2 ⊛ z 35 ⊛ z 3569 ⊝ z 412 ⊛ z 3530 ⊝ z 1345 ⊛ z
    635 ⊝ z 1360 ⊛ z 581)) ⊘ hpow (z 35) 5),
(3571, (n 3 ⊛ z 33 ⊛ z 418 ⊛ z 1345 ⊛ z 581 ⊘ z 35 ⊹ z 36 ⊛ (z 33 ⊛ z 36 ⊛ z 3570 ⊹ z 36 ⊛ z 1344
    ⊛ z 636 ⊹ z 36 ⊛ z 1361 ⊛ z 580 ⊹ n 2 ⊛ z 36 ⊛ z 418 ⊛ z 3528 ⊹ (z 33 ⊛ z 418 ⊛ z 1345 ⊛ z 581
    ⊝ n 2 ⊛ z 33 ⊛ z 35 ⊛ z 418 ⊛ z 3530 ⊝ n 2 ⊛ z 35 ⊛ z 418 ⊛ z 1344 ⊛ z 581 ⊝ n 2 ⊛ z 35 ⊛ z
    418 ⊛ z 1345 ⊛ z 580 ⊝ z 33 ⊛ z 35 ⊛ z 1345 ⊛ z 636 ⊝ z 33 ⊛ z 35 ⊛ z 1361 ⊛ z 581) ⊘ hpow (z
    35) 3)) ⊘ pow (z 36) 4),
(3572, (n 2 ⊛ z 1345 ⊛ (z 36 ⊛ (z 34 ⊛ z 636 ⊹ n 2 ⊛ z 418 ⊛ z 579) ⊹ (z 25 ⊛ z 36 ⊝ n 3 ⊛ z 34 ⊛
    z 418) ⊛ z 581 ⊘ hpow (z 35) 1) ⊘ hpow (z 35) 1 ⊹ z 36 ⊛ (n 2 ⊛ z 36 ⊛ (n 2 ⊛ z 36 ⊛ z 3407 ⊝
    n 2 ⊛ z 418 ⊛ z 3529 ⊝ z 34 ⊛ z 3570 ⊝ z 1343 ⊛ z 636 ⊝ z 1361 ⊛ z 579 ⊝ z 1345 ⊛ z 296 ⊘ hpow
    (z 35) 1) ⊝ (n 2 ⊛ z 35 ⊛ (z 25 ⊛ z 36 ⊝ n 2 ⊛ z 34 ⊛ z 418) ⊛ z 3530 ⊝ z 1345 ⊛ (z 25 ⊛ z 36
    ⊝ n 2 ⊛ z 34 ⊛ z 418) ⊛ z 581 ⊝ n 2 ⊛ z 35 ⊛ (z 34 ⊛ z 1361 ⊹ n 2 ⊛ z 418 ⊛ z 1343 ⊝ z 5 ⊛ z 9
    ⊛ z 36) ⊛ z 581) ⊘ hpow (z 35) 3)) ⊘ pow (z 36) 4),
(3573, qt 1 ⊛ rf ⊛ z 32 ⊛ z 3572 ⊝ z 3 ⊛ z 6 ⊛ z 432 ⊛ z 1590 ⊝ z 444 ⊛ z 3416 ⊝ qt 2 ⊛ rf ⊛ z 28
    ⊛ z 3571 ⊝ qt 2 ⊛ rf ⊛ z 1348 ⊛ z 638 ⊝ qt 2 ⊛ rf ⊛ z 1362 ⊛ z 268 ⊝ qt 2 ⊛ rf ⊛ z 1363 ⊛ z
    308),
(3574, n 2 ⊛ z 23 ⊛ z 3529 ⊹ n 2 ⊛ z 34 ⊛ z 3413 ⊹ n 2 ⊛ z 1343 ⊛ z 305 ⊝ n 2 ⊛ z 5 ⊛ z 33 ⊛ z
    1590 ⊝ n 2 ⊛ z 5 ⊛ z 1344 ⊛ q5p ⊝ n 2 ⊛ z 6 ⊛ z 3528 ⊝ n 2 ⊛ z 5 ⊛ z 10 ⊛ z 579),
(3575, (qt 6 ⊛ z 411 ⊛ z 1345 ⊛ z 581 ⊹ z 35 ⊛ (n 2 ⊛ z 35 ⊛ z 3574 ⊝ z 411 ⊛ z 3530 ⊝ z 1345 ⊛ z
    640 ⊝ z 1380 ⊛ z 581)) ⊘ hpow (z 35) 5)]

/-- _mooreriderlean2012.py:7659-7743 -/
def part66 : List (ℕ × E) := [
(3576, (z 1345 ⊛ (n 3 ⊛ z 33 ⊛ z 421 ⊛ z 581 ⊘ hpow (z 35) 1 ⊝ z 36 ⊛ (n 2 ⊛ z 5 ⊛ z 36 ⊛ q5p ⊹ z
    33 ⊛ z 641 ⊹ n 2 ⊛ z 421 ⊛ z 580 ⊝ n 2 ⊛ z 6 ⊛ z 581 ⊘ hpow (z 35) 1)) ⊘ hpow (z 35) 1 ⊹ z 36
    ⊛ ((z 33 ⊛ z 421 ⊛ z 1345 ⊛ z 581 ⊝ n 2 ⊛ z 33 ⊛ z 35 ⊛ z 421 ⊛ z 3530 ⊝ n 2 ⊛ z 35 ⊛ z 421 ⊛
    z 1344 ⊛ z 581 ⊝ z 33 ⊛ z 35 ⊛ z 1381 ⊛ z 581) ⊘ hpow (z 35) 3 ⊹ z 36 ⊛ (n 4 ⊛ z 5 ⊛ z 36 ⊛ z
    1590 ⊹ z 33 ⊛ z 3575 ⊹ z 1344 ⊛ z 641 ⊹ z 1381 ⊛ z 580 ⊹ n 2 ⊛ z 421 ⊛ z 3528 ⊝ z 6 ⊛ (n 2 ⊛ z
    35 ⊛ z 3530 ⊝ z 1345 ⊛ z 581) ⊘ hpow (z 35) 3))) ⊘ pow (z 36) 4),
(3577, (z 1345 ⊛ (z 36 ⊛ (z 34 ⊛ z 641 ⊹ n 2 ⊛ z 421 ⊛ z 579) ⊹ n 2 ⊛ (z 23 ⊛ z 36 ⊝ qt 6 ⊛ z 34 ⊛
    z 421) ⊛ z 581 ⊘ hpow (z 35) 1) ⊘ hpow (z 35) 1 ⊹ z 36 ⊛ (z 36 ⊛ (n 4 ⊛ z 36 ⊛ z 3413 ⊝ n 2 ⊛
    z 421 ⊛ z 3529 ⊝ z 34 ⊛ z 3575 ⊝ z 1343 ⊛ z 641 ⊝ z 1381 ⊛ z 579 ⊝ n 2 ⊛ z 1345 ⊛ z 305 ⊘ hpow
    (z 35) 1) ⊝ (n 2 ⊛ z 35 ⊛ (z 23 ⊛ z 36 ⊝ z 34 ⊛ z 421) ⊛ z 3530 ⊝ z 1345 ⊛ (z 23 ⊛ z 36 ⊝ z 34
    ⊛ z 421) ⊛ z 581 ⊝ z 35 ⊛ (z 34 ⊛ z 1381 ⊹ n 2 ⊛ z 421 ⊛ z 1343 ⊹ n 2 ⊛ z 5 ⊛ z 10 ⊛ z 36) ⊛ z
    581) ⊘ hpow (z 35) 3)) ⊘ pow (z 36) 4),
(3578, qt 1 ⊛ rf ⊛ z 32 ⊛ z 3577 ⊹ qt 1 ⊛ rf ⊛ z 1348 ⊛ z 643 ⊹ qt 1 ⊛ rf ⊛ z 1382 ⊛ z 268 ⊹ qt 1
    ⊛ rf ⊛ z 1383 ⊛ z 308 ⊝ qt 2 ⊛ z 3 ⊛ z 6 ⊛ z 430 ⊛ z 1590 ⊝ qt 2 ⊛ z 446 ⊛ z 3416 ⊝ qt 1 ⊛ rf
    ⊛ z 28 ⊛ z 3576),
(3579, d1 ⊛ z 4 ⊛ z 5 ⊛ z 1590 ⊹ z 4 ⊛ z 6 ⊛ z 448 ⊛ z 1590 ⊹ qt 2 ⊛ rf ⊛ z 4 ⊛ z 6 ⊛ z 1346 ⊛ q5p
    ⊹ z 3 ⊛ z 5 ⊛ z 3568 ⊹ (z 3 ⊛ z 24 ⊝ z 4 ⊛ z 10) ⊛ z 3573 ⊹ (z 4 ⊛ z 10 ⊝ z 3 ⊛ z 6 ⊛ z 9) ⊛ z
    644 ⊹ qt 1 ⊛ rf ⊛ (z 3 ⊛ z 10 ⊹ z 4 ⊛ z 24) ⊛ z 3531 ⊹ qt 2 ⊛ rf ⊛ (z 3 ⊛ z 9 ⊝ z 4 ⊛ z 6 ⊛ z
    10) ⊛ z 584 ⊹ z 451 ⊛ (z 3 ⊛ z 10 ⊛ q4p ⊹ z 4 ⊛ z 9 ⊛ q7p ⊹ z 4 ⊛ z 6 ⊛ z 9 ⊛ q4p ⊝ z 3 ⊛ z
    3403) ⊹ z 1384 ⊛ (z 4 ⊛ z 10 ⊛ q7p ⊹ z 4 ⊛ z 26 ⊛ q4p ⊝ z 3 ⊛ z 9 ⊛ q4p ⊝ z 3 ⊛ z 295) ⊝ z 3 ⊛
    z 6 ⊛ z 455 ⊛ z 1590 ⊝ z 3 ⊛ z 6 ⊛ z 1369 ⊛ q5p ⊝ z 4 ⊛ z 5 ⊛ z 1369 ⊛ q4p ⊝ qt 2 ⊛ rf ⊛ z 3 ⊛
    z 5 ⊛ z 1346 ⊛ q4p ⊝ qt 1 ⊛ rf ⊛ z 4 ⊛ z 5 ⊛ z 3536 ⊝ (z 3 ⊛ z 26 ⊹ z 4 ⊛ z 9) ⊛ z 3578 ⊝ (z 4
    ⊛ z 9 ⊹ z 3 ⊛ z 6 ⊛ z 10) ⊛ z 639 ⊝ z 1364 ⊛ (z 3 ⊛ z 10 ⊛ q4p ⊹ z 4 ⊛ z 9 ⊛ q7p ⊹ z 4 ⊛ z 24
    ⊛ q4p ⊝ z 3 ⊛ z 303) ⊝ z 449 ⊛ (z 3 ⊛ z 10 ⊛ q7p ⊹ z 4 ⊛ z 9 ⊛ q4p ⊹ z 3 ⊛ z 6 ⊛ z 10 ⊛ q4p ⊝
    z 4 ⊛ z 3411) ⊝ z 453 ⊛ (z 3 ⊛ z 9 ⊛ q4p ⊝ z 4 ⊛ z 10 ⊛ q7p ⊝ z 4 ⊛ z 6 ⊛ z 10 ⊛ q4p ⊝ z 3 ⊛ z
    3411) ⊝ qt 2 ⊛ rf ⊛ z 1350 ⊛ (z 4 ⊛ z 10 ⊛ q4p ⊝ z 3 ⊛ z 9 ⊛ q7p ⊝ z 3 ⊛ z 24 ⊛ q4p ⊝ z 4 ⊛ z
    303)),
(3580, z 5 ⊛ z 3404 ⊝ z 6 ⊛ z 29 ⊛ z 1590 ⊝ z 6 ⊛ z 1342 ⊛ q5p),
(3581, z 33 ⊛ z 3580 ⊹ z 410 ⊛ z 3528 ⊹ z 1344 ⊛ z 646 ⊹ z 5 ⊛ z 1342 ⊛ z 580),
(3582, (qt 6 ⊛ z 415 ⊛ z 1345 ⊛ z 581 ⊹ z 35 ⊛ (n 2 ⊛ z 35 ⊛ z 3581 ⊝ z 415 ⊛ z 3530 ⊝ z 1345 ⊛ z
    647 ⊝ z 1355 ⊛ z 581)) ⊘ hpow (z 35) 5),
(3583, (n 3 ⊛ z 34 ⊛ z 417 ⊛ z 1345 ⊛ z 581 ⊘ z 35 ⊹ z 36 ⊛ (z 34 ⊛ z 36 ⊛ z 3582 ⊹ z 36 ⊛ z 1343
    ⊛ z 648 ⊹ z 36 ⊛ z 1356 ⊛ z 579 ⊹ n 2 ⊛ z 36 ⊛ z 417 ⊛ z 3529 ⊹ (z 34 ⊛ z 417 ⊛ z 1345 ⊛ z 581
    ⊝ n 2 ⊛ z 34 ⊛ z 35 ⊛ z 417 ⊛ z 3530 ⊝ n 2 ⊛ z 35 ⊛ z 417 ⊛ z 1343 ⊛ z 581 ⊝ n 2 ⊛ z 35 ⊛ z
    417 ⊛ z 1345 ⊛ z 579 ⊝ z 34 ⊛ z 35 ⊛ z 1345 ⊛ z 648 ⊝ z 34 ⊛ z 35 ⊛ z 1356 ⊛ z 581) ⊘ hpow (z
    35) 3)) ⊘ pow (z 36) 4),
(3584, (n 2 ⊛ z 1345 ⊛ (n 3 ⊛ z 33 ⊛ z 417 ⊛ z 581 ⊘ hpow (z 35) 1 ⊹ z 36 ⊛ (z 36 ⊛ z 646 ⊝ n 2 ⊛
    z 417 ⊛ z 580 ⊝ z 410 ⊛ z 581 ⊘ hpow (z 35) 1)) ⊘ hpow (z 35) 1 ⊹ z 36 ⊛ (n 2 ⊛ (z 33 ⊛ z 417
    ⊛ z 1345 ⊛ z 581 ⊝ n 2 ⊛ z 33 ⊛ z 35 ⊛ z 417 ⊛ z 3530 ⊝ n 2 ⊛ z 35 ⊛ z 417 ⊛ z 1344 ⊛ z 581 ⊝
    z 33 ⊛ z 35 ⊛ z 1345 ⊛ z 648 ⊝ z 33 ⊛ z 35 ⊛ z 1356 ⊛ z 581) ⊘ hpow (z 35) 3 ⊹ z 36 ⊛ (n 2 ⊛ z
    33 ⊛ z 3582 ⊹ n 2 ⊛ z 1344 ⊛ z 648 ⊹ n 2 ⊛ z 1356 ⊛ z 580 ⊹ n 4 ⊛ z 417 ⊛ z 3528 ⊝ n 4 ⊛ z 36
    ⊛ z 3580 ⊝ (z 410 ⊛ z 1345 ⊛ z 581 ⊝ n 2 ⊛ z 35 ⊛ z 410 ⊛ z 3530 ⊝ n 2 ⊛ z 5 ⊛ z 35 ⊛ z 1342 ⊛
    z 581) ⊘ hpow (z 35) 3))) ⊘ pow (z 36) 4),
(3585, z 441 ⊛ z 3416 ⊹ qt 1 ⊛ rf ⊛ z 28 ⊛ z 3584 ⊹ qt 2 ⊛ rf ⊛ z 32 ⊛ z 3583 ⊹ qt 2 ⊛ rf ⊛ z 1358
    ⊛ z 268 ⊝ z 3 ⊛ z 6 ⊛ z 429 ⊛ z 1590 ⊝ qt 2 ⊛ rf ⊛ z 1348 ⊛ z 649 ⊝ qt 2 ⊛ rf ⊛ z 1357 ⊛ z
    308),
(3586, z 29 ⊛ z 3529 ⊹ z 34 ⊛ z 3404 ⊹ z 1342 ⊛ z 579 ⊹ z 1343 ⊛ z 300),
(3587, (qt 6 ⊛ z 414 ⊛ z 1345 ⊛ z 581 ⊹ z 35 ⊛ (n 2 ⊛ z 35 ⊛ z 3586 ⊝ z 414 ⊛ z 3530 ⊝ z 1345 ⊛ z
    652 ⊝ z 1370 ⊛ z 581)) ⊘ hpow (z 35) 5),
(3588, (n 3 ⊛ z 33 ⊛ z 419 ⊛ z 1345 ⊛ z 581 ⊘ z 35 ⊹ z 36 ⊛ (z 33 ⊛ z 36 ⊛ z 3587 ⊹ z 36 ⊛ z 1344
    ⊛ z 653 ⊹ z 36 ⊛ z 1371 ⊛ z 580 ⊹ n 2 ⊛ z 36 ⊛ z 419 ⊛ z 3528 ⊹ (z 33 ⊛ z 419 ⊛ z 1345 ⊛ z 581
    ⊝ n 2 ⊛ z 33 ⊛ z 35 ⊛ z 419 ⊛ z 3530 ⊝ n 2 ⊛ z 35 ⊛ z 419 ⊛ z 1344 ⊛ z 581 ⊝ n 2 ⊛ z 35 ⊛ z
    419 ⊛ z 1345 ⊛ z 580 ⊝ z 33 ⊛ z 35 ⊛ z 1345 ⊛ z 653 ⊝ z 33 ⊛ z 35 ⊛ z 1371 ⊛ z 581) ⊘ hpow (z
    35) 3)) ⊘ pow (z 36) 4),
(3589, (n 2 ⊛ z 1345 ⊛ (z 36 ⊛ (z 34 ⊛ z 653 ⊹ n 2 ⊛ z 419 ⊛ z 579) ⊹ (z 29 ⊛ z 36 ⊝ n 3 ⊛ z 34 ⊛
    z 419) ⊛ z 581 ⊘ hpow (z 35) 1) ⊘ hpow (z 35) 1 ⊹ z 36 ⊛ (n 2 ⊛ z 36 ⊛ (n 2 ⊛ z 36 ⊛ z 3404 ⊝
    n 2 ⊛ z 419 ⊛ z 3529 ⊝ z 34 ⊛ z 3587 ⊝ z 1343 ⊛ z 653 ⊝ z 1371 ⊛ z 579 ⊝ z 1345 ⊛ z 300 ⊘ hpow
    (z 35) 1) ⊹ (z 1345 ⊛ (z 29 ⊛ z 36 ⊝ n 2 ⊛ z 34 ⊛ z 419) ⊛ z 581 ⊝ n 2 ⊛ z 35 ⊛ (z 29 ⊛ z 36 ⊝
    n 2 ⊛ z 34 ⊛ z 419) ⊛ z 3530 ⊝ n 2 ⊛ z 35 ⊛ (z 36 ⊛ z 1342 ⊝ n 2 ⊛ z 419 ⊛ z 1343 ⊝ z 34 ⊛ z
    1371) ⊛ z 581) ⊘ hpow (z 35) 3)) ⊘ pow (z 36) 4),
(3590, qt 1 ⊛ rf ⊛ z 32 ⊛ z 3589 ⊝ z 3 ⊛ z 6 ⊛ z 433 ⊛ z 1590 ⊝ z 445 ⊛ z 3416 ⊝ qt 2 ⊛ rf ⊛ z 28
    ⊛ z 3588 ⊝ qt 2 ⊛ rf ⊛ z 1348 ⊛ z 655 ⊝ qt 2 ⊛ rf ⊛ z 1372 ⊛ z 268 ⊝ qt 2 ⊛ rf ⊛ z 1373 ⊛ z
    308),
(3591, n 2 ⊛ z 27 ⊛ z 3529 ⊹ n 2 ⊛ z 31 ⊛ z 3528 ⊹ n 2 ⊛ z 34 ⊛ z 3419 ⊹ n 2 ⊛ z 1339 ⊛ z 579 ⊹ n
    2 ⊛ z 1343 ⊛ z 310 ⊹ n 2 ⊛ z 1344 ⊛ z 269 ⊝ n 2 ⊛ z 4 ⊛ z 6 ⊛ z 33 ⊛ z 1590),
(3592, (qt 6 ⊛ z 413 ⊛ z 1345 ⊛ z 581 ⊹ z 35 ⊛ (n 2 ⊛ z 35 ⊛ z 3591 ⊝ z 413 ⊛ z 3530 ⊝ z 1345 ⊛ z
    657 ⊝ z 1375 ⊛ z 581)) ⊘ hpow (z 35) 5),
(3593, (n 3 ⊛ z 33 ⊛ z 422 ⊛ z 1345 ⊛ z 581 ⊘ z 35 ⊹ z 36 ⊛ (z 36 ⊛ (n 4 ⊛ z 4 ⊛ z 6 ⊛ z 36 ⊛ z
    1590 ⊹ z 33 ⊛ z 3592 ⊹ z 1344 ⊛ z 658 ⊹ z 1376 ⊛ z 580 ⊹ n 2 ⊛ z 422 ⊛ z 3528 ⊹ n 2 ⊛ z 1345 ⊛
    z 269 ⊘ hpow (z 35) 1) ⊹ (n 2 ⊛ z 35 ⊛ (z 31 ⊛ z 36 ⊝ z 33 ⊛ z 422) ⊛ z 3530 ⊝ z 35 ⊛ z 1345 ⊛
    (z 33 ⊛ z 658 ⊹ n 2 ⊛ z 422 ⊛ z 580) ⊝ z 1345 ⊛ (z 31 ⊛ z 36 ⊝ z 33 ⊛ z 422) ⊛ z 581 ⊝ z 35 ⊛
    (z 33 ⊛ z 1376 ⊹ n 2 ⊛ z 422 ⊛ z 1344 ⊹ n 2 ⊛ z 31 ⊛ z 1345 ⊘ hpow (z 35) 1) ⊛ z 581) ⊘ hpow
    (z 35) 3)) ⊘ pow (z 36) 4),
(3594, (z 1345 ⊛ (z 36 ⊛ (z 34 ⊛ z 658 ⊹ n 2 ⊛ z 422 ⊛ z 579) ⊹ n 2 ⊛ (z 27 ⊛ z 36 ⊝ qt 6 ⊛ z 34 ⊛
    z 422) ⊛ z 581 ⊘ hpow (z 35) 1) ⊘ hpow (z 35) 1 ⊹ z 36 ⊛ (z 36 ⊛ (n 4 ⊛ z 36 ⊛ z 3419 ⊝ n 2 ⊛
    z 422 ⊛ z 3529 ⊝ z 34 ⊛ z 3592 ⊝ z 1343 ⊛ z 658 ⊝ z 1376 ⊛ z 579 ⊝ n 2 ⊛ z 1345 ⊛ z 310 ⊘ hpow
    (z 35) 1) ⊹ (z 1345 ⊛ (z 27 ⊛ z 36 ⊝ z 34 ⊛ z 422) ⊛ z 581 ⊝ n 2 ⊛ z 35 ⊛ (z 27 ⊛ z 36 ⊝ z 34
    ⊛ z 422) ⊛ z 3530 ⊝ z 35 ⊛ (n 2 ⊛ z 36 ⊛ z 1339 ⊝ n 2 ⊛ z 422 ⊛ z 1343 ⊝ z 34 ⊛ z 1376) ⊛ z
    581) ⊘ hpow (z 35) 3)) ⊘ pow (z 36) 4),
(3595, qt 2 ⊛ z 442 ⊛ z 3416 ⊹ qt 1 ⊛ rf ⊛ z 32 ⊛ z 3594 ⊝ qt 2 ⊛ z 3 ⊛ z 6 ⊛ z 431 ⊛ z 1590 ⊝ qt
    1 ⊛ rf ⊛ z 28 ⊛ z 3593 ⊝ qt 1 ⊛ rf ⊛ z 1348 ⊛ z 659 ⊝ qt 1 ⊛ rf ⊛ z 1377 ⊛ z 308 ⊝ qt 1 ⊛ rf ⊛
    z 1378 ⊛ z 268)]

/-- _mooreriderlean2012.py:7744-7831 -/
def part67 : List (ℕ × E) := [
(3596, d1 ⊛ z 3 ⊛ z 6 ⊛ z 1590 ⊹ z 3 ⊛ z 6 ⊛ z 9 ⊛ z 449 ⊛ z 1590 ⊹ z 4 ⊛ z 6 ⊛ z 10 ⊛ z 451 ⊛ z
    1590 ⊹ z 5 ⊛ z 10 ⊛ z 454 ⊛ q5p ⊹ z 6 ⊛ z 9 ⊛ z 454 ⊛ q7p ⊹ z 6 ⊛ z 10 ⊛ z 452 ⊛ q7p ⊹ z 6 ⊛ z
    10 ⊛ z 1374 ⊛ q7p ⊹ z 3 ⊛ z 5 ⊛ z 9 ⊛ z 449 ⊛ q7p ⊹ z 3 ⊛ z 5 ⊛ z 9 ⊛ z 1364 ⊛ q4p ⊹ z 4 ⊛ z 5
    ⊛ z 10 ⊛ z 451 ⊛ q7p ⊹ z 4 ⊛ z 6 ⊛ z 9 ⊛ z 451 ⊛ q5p ⊹ z 4 ⊛ z 6 ⊛ z 10 ⊛ z 453 ⊛ q5p ⊹ z 4 ⊛
    z 6 ⊛ z 10 ⊛ z 1384 ⊛ q5p ⊹ qt 2 ⊛ rf ⊛ z 4 ⊛ z 6 ⊛ z 1346 ⊛ q4p ⊹ qt 2 ⊛ rf ⊛ z 3 ⊛ z 5 ⊛ z
    10 ⊛ z 1350 ⊛ q7p ⊹ qt 2 ⊛ rf ⊛ z 3 ⊛ z 6 ⊛ z 9 ⊛ z 1350 ⊛ q5p ⊹ qt 2 ⊛ rf ⊛ z 4 ⊛ z 5 ⊛ z 9 ⊛
    z 1350 ⊛ q4p ⊹ z 3585 ⊹ z 6 ⊛ z 10 ⊛ z 656 ⊹ z 4 ⊛ z 5 ⊛ z 9 ⊛ z 3573 ⊹ qt 2 ⊛ rf ⊛ z 3 ⊛ z 5
    ⊛ z 10 ⊛ z 584 ⊝ z 3 ⊛ z 5 ⊛ z 448 ⊛ z 1590 ⊝ z 4 ⊛ z 5 ⊛ z 455 ⊛ z 1590 ⊝ z 5 ⊛ z 9 ⊛ z 454 ⊛
    z 1590 ⊝ z 5 ⊛ z 10 ⊛ z 452 ⊛ z 1590 ⊝ z 4 ⊛ z 6 ⊛ z 9 ⊛ z 453 ⊛ z 1590 ⊝ z 3 ⊛ z 6 ⊛ z 1369 ⊛
    q4p ⊝ z 4 ⊛ z 5 ⊛ z 1369 ⊛ q5p ⊝ z 5 ⊛ z 9 ⊛ z 452 ⊛ q5p ⊝ z 5 ⊛ z 9 ⊛ z 1374 ⊛ q5p ⊝ z 5 ⊛ z
    10 ⊛ z 1379 ⊛ q5p ⊝ z 6 ⊛ z 9 ⊛ z 1379 ⊛ q7p ⊝ z 3 ⊛ z 5 ⊛ z 9 ⊛ z 451 ⊛ q4p ⊝ z 3 ⊛ z 5 ⊛ z
    10 ⊛ z 453 ⊛ q4p ⊝ z 3 ⊛ z 5 ⊛ z 10 ⊛ z 1384 ⊛ q4p ⊝ z 3 ⊛ z 6 ⊛ z 10 ⊛ z 449 ⊛ q5p ⊝ z 4 ⊛ z
    5 ⊛ z 9 ⊛ z 453 ⊛ q7p ⊝ z 4 ⊛ z 5 ⊛ z 9 ⊛ z 1384 ⊛ q7p ⊝ z 4 ⊛ z 5 ⊛ z 10 ⊛ z 449 ⊛ q4p ⊝ z 4
    ⊛ z 5 ⊛ z 10 ⊛ z 1364 ⊛ q7p ⊝ z 4 ⊛ z 6 ⊛ z 9 ⊛ z 1364 ⊛ q5p ⊝ qt 2 ⊛ rf ⊛ z 3 ⊛ z 5 ⊛ z 1346
    ⊛ q5p ⊝ z 4 ⊛ z 6 ⊛ z 3568 ⊝ z 6 ⊛ z 9 ⊛ z 661 ⊝ z 6 ⊛ z 9 ⊛ z 3590 ⊝ z 6 ⊛ z 10 ⊛ z 3595 ⊝ z
    4 ⊛ z 5 ⊛ z 9 ⊛ z 644 ⊝ z 4 ⊛ z 5 ⊛ z 10 ⊛ z 639 ⊝ z 4 ⊛ z 5 ⊛ z 10 ⊛ z 3578 ⊝ qt 1 ⊛ rf ⊛ z 3
    ⊛ z 6 ⊛ z 3536 ⊝ qt 1 ⊛ rf ⊛ z 3 ⊛ z 5 ⊛ z 9 ⊛ z 3531),
(3597, z 6 ⊛ z 10 ⊛ z 454 ⊛ z 1590 ⊹ z 5 ⊛ z 10 ⊛ z 454 ⊛ q7p ⊹ z 6 ⊛ z 9 ⊛ z 454 ⊛ q5p ⊹ z 6 ⊛ z
    10 ⊛ z 452 ⊛ q5p ⊹ z 6 ⊛ z 10 ⊛ z 1374 ⊛ q5p ⊹ qt 2 ⊛ rf ⊛ z 1350 ⊛ (z 3 ⊛ z 9 ⊛ q4p ⊹ z 3 ⊛ z
    5 ⊛ z 10 ⊛ q5p ⊹ z 3 ⊛ z 6 ⊛ z 9 ⊛ q7p ⊝ z 4 ⊛ z 10 ⊛ q7p ⊝ z 4 ⊛ z 6 ⊛ z 10 ⊛ q4p) ⊹ z 449 ⊛
    (z 3 ⊛ z 5 ⊛ z 10 ⊛ z 1590 ⊹ z 3 ⊛ z 5 ⊛ z 9 ⊛ q5p ⊝ z 3 ⊛ z 10 ⊛ q4p ⊝ z 4 ⊛ z 9 ⊛ q7p ⊝ z 3
    ⊛ z 6 ⊛ z 10 ⊛ q7p ⊝ z 4 ⊛ z 6 ⊛ z 9 ⊛ q4p) ⊹ z 5 ⊛ z 9 ⊛ z 3595 ⊹ (z 3 ⊛ z 9 ⊝ z 4 ⊛ z 6 ⊛ z
    10) ⊛ z 3573 ⊹ qt 1 ⊛ rf ⊛ (z 4 ⊛ z 9 ⊹ z 3 ⊛ z 6 ⊛ z 10) ⊛ z 3531 ⊝ z 6 ⊛ z 9 ⊛ z 452 ⊛ z
    1590 ⊝ z 5 ⊛ z 9 ⊛ z 452 ⊛ q7p ⊝ z 5 ⊛ z 9 ⊛ z 1374 ⊛ q7p ⊝ z 5 ⊛ z 10 ⊛ z 1379 ⊛ q7p ⊝ z 6 ⊛
    z 9 ⊛ z 1379 ⊛ q5p ⊝ z 1364 ⊛ (z 3 ⊛ z 10 ⊛ q7p ⊹ z 4 ⊛ z 9 ⊛ q4p ⊹ z 3 ⊛ z 6 ⊛ z 10 ⊛ q4p ⊹ z
    4 ⊛ z 5 ⊛ z 10 ⊛ q5p ⊹ z 4 ⊛ z 6 ⊛ z 9 ⊛ q7p) ⊝ z 1384 ⊛ (z 3 ⊛ z 9 ⊛ q7p ⊹ z 3 ⊛ z 6 ⊛ z 9 ⊛
    q4p ⊹ z 4 ⊛ z 5 ⊛ z 9 ⊛ q5p ⊝ z 4 ⊛ z 10 ⊛ q4p ⊝ z 4 ⊛ z 6 ⊛ z 10 ⊛ q7p) ⊝ z 453 ⊛ (z 4 ⊛ z 5
    ⊛ z 10 ⊛ z 1590 ⊹ z 3 ⊛ z 9 ⊛ q7p ⊹ z 3 ⊛ z 6 ⊛ z 9 ⊛ q4p ⊹ z 4 ⊛ z 5 ⊛ z 9 ⊛ q5p ⊝ z 4 ⊛ z 10
    ⊛ q4p ⊝ z 4 ⊛ z 6 ⊛ z 10 ⊛ q7p) ⊝ z 451 ⊛ (z 4 ⊛ z 5 ⊛ z 9 ⊛ z 1590 ⊝ z 3 ⊛ z 10 ⊛ q7p ⊝ z 4 ⊛
    z 9 ⊛ q4p ⊝ z 3 ⊛ z 6 ⊛ z 10 ⊛ q4p ⊝ z 4 ⊛ z 5 ⊛ z 10 ⊛ q5p ⊝ z 4 ⊛ z 6 ⊛ z 9 ⊛ q7p) ⊝ z 5 ⊛ z
    9 ⊛ z 656 ⊝ z 5 ⊛ z 10 ⊛ z 661 ⊝ z 5 ⊛ z 10 ⊛ z 3590 ⊝ (z 3 ⊛ z 10 ⊹ z 4 ⊛ z 6 ⊛ z 9) ⊛ z 639
    ⊝ (z 3 ⊛ z 10 ⊹ z 4 ⊛ z 6 ⊛ z 9) ⊛ z 3578 ⊝ (z 3 ⊛ z 9 ⊝ z 4 ⊛ z 6 ⊛ z 10) ⊛ z 644 ⊝ qt 2 ⊛ rf
    ⊛ (z 4 ⊛ z 10 ⊝ z 3 ⊛ z 6 ⊛ z 9) ⊛ z 584),
(3598, u4 ⊛ z 3579 ⊹ u5 ⊛ z 3596 ⊹ u7 ⊛ z 3597 ⊹ z 1590 ⊛ z 662),
(3599, z 4 ⊛ z 6 ⊛ z 122 ⊛ z 1590 ⊹ z 27 ⊛ z 3520 ⊹ z 29 ⊛ z 3521 ⊹ z 233 ⊛ z 3419 ⊹ z 238 ⊛ z 310
    ⊹ z 238 ⊛ z 3404 ⊹ z 1339 ⊛ z 571 ⊹ z 1342 ⊛ z 572 ⊹ z 1433 ⊛ z 300 ⊝ z 31 ⊛ z 3518),
(3600, z 4 ⊛ z 6 ⊛ z 125 ⊛ z 1590 ⊹ z 27 ⊛ z 3525 ⊹ z 29 ⊛ z 3526 ⊹ z 234 ⊛ z 3419 ⊹ z 239 ⊛ z 310
    ⊹ z 239 ⊛ z 3404 ⊹ z 1339 ⊛ z 576 ⊹ z 1342 ⊛ z 577 ⊹ z 1391 ⊛ z 300 ⊝ z 31 ⊛ z 3523),
(3601, z 4 ⊛ z 6 ⊛ z 262 ⊛ z 1590 ⊹ z 257 ⊛ z 3419 ⊹ z 259 ⊛ z 3404 ⊹ (z 1341 ⊹ z 1347) ⊛ z 310 ⊹
    (z 1349 ⊹ z 1351) ⊛ z 300 ⊹ z 27 ⊛ (z 3535 ⊹ z 3537) ⊹ z 29 ⊛ (z 3539 ⊹ z 3540) ⊹ z 1339 ⊛ (z
    611 ⊹ z 612) ⊹ z 1342 ⊛ (z 614 ⊹ z 615) ⊝ z 31 ⊛ z 3533 ⊝ z 1353 ⊛ z 269),
(3602, z 4 ⊛ z 6 ⊛ z 263 ⊛ z 1590 ⊹ z 256 ⊛ z 3419 ⊹ z 261 ⊛ z 3404 ⊹ z 1409 ⊛ z 300 ⊹ (z 1399 ⊹ z
    1400) ⊛ z 310 ⊹ z 27 ⊛ (z 3542 ⊹ z 3543) ⊹ z 29 ⊛ (z 3547 ⊹ z 3548) ⊹ z 1339 ⊛ (z 597 ⊹ z 598)
    ⊹ z 1342 ⊛ (z 600 ⊹ z 601) ⊹ (z 1398 ⊹ d3 ⊛ z 1397) ⊛ z 269 ⊝ z 31 ⊛ (z 3544 ⊝ z 3545)),
(3603, z 4 ⊛ z 6 ⊛ z 264 ⊛ z 1590 ⊹ z 255 ⊛ z 3419 ⊹ z 260 ⊛ z 3404 ⊹ z 1424 ⊛ z 300 ⊹ (z 1416 ⊹ z
    1417) ⊛ z 310 ⊹ z 27 ⊛ (z 3550 ⊹ z 3551) ⊹ z 29 ⊛ (z 3555 ⊹ z 3556) ⊹ z 1339 ⊛ (z 589 ⊹ z 590)
    ⊹ z 1342 ⊛ (z 592 ⊹ z 593) ⊹ (z 1415 ⊹ d3 ⊛ z 1414) ⊛ z 269 ⊝ z 31 ⊛ (z 3552 ⊝ z 3553)),
(3604, z 258 ⊛ z 3404 ⊹ (z 1444 ⊹ z 1447) ⊛ z 300 ⊹ z 29 ⊛ (z 3559 ⊹ z 3560) ⊹ z 1342 ⊛ (z 617 ⊹ z
    618)),
(3605, z 254 ⊛ z 3419 ⊹ qt 2 ⊛ z 1339 ⊛ z 583 ⊹ qt 1 ⊛ rf ⊛ z 27 ⊛ z 83 ⊛ z 3536 ⊹ qt 1 ⊛ rf ⊛ z
    31 ⊛ z 83 ⊛ z 3531 ⊹ qt 2 ⊛ rf ⊛ z 83 ⊛ z 1346 ⊛ z 310 ⊹ qt 2 ⊛ rf ⊛ z 83 ⊛ z 1350 ⊛ z 269 ⊝ z
    4 ⊛ z 6 ⊛ z 250 ⊛ z 1590),
(3606, u1 ⊛ z 3599 ⊹ u2 ⊛ z 3600 ⊹ u3 ⊛ z 3601 ⊹ u4 ⊛ z 3602 ⊹ u5 ⊛ z 3603 ⊹ u7 ⊛ z 3604 ⊹ u8 ⊛ z
    3605 ⊹ z 1451 ⊛ z 621 ⊹ z 1518 ⊛ z 622 ⊹ z 1566 ⊛ z 626 ⊹ z 1590 ⊛ z 624 ⊹ z 1669 ⊛ z 623),
(3607, (z 1437 ⊛ (z 525 ⊛ z 568 ⊹ z 478 ⊛ z 496 ⊛ z 620 ⊝ z 511 ⊛ z 553 ⊝ z 535 ⊛ z 664 ⊝ z 478 ⊛
    z 528 ⊛ z 628) ⊝ z 494 ⊛ (z 525 ⊛ z 3517 ⊹ z 1559 ⊛ z 568 ⊹ z 478 ⊛ z 496 ⊛ z 3562 ⊹ z 478 ⊛ z
    1389 ⊛ z 620 ⊝ z 511 ⊛ z 3563 ⊝ z 535 ⊛ z 3598 ⊝ z 1561 ⊛ z 553 ⊝ z 1562 ⊛ z 664 ⊝ z 478 ⊛ z
    528 ⊛ z 3606 ⊝ z 478 ⊛ z 1432 ⊛ z 628)) ⊘ pow (z 494) 2),
(3608, z 803 ⊛ z 1404 ⊹ z 808 ⊛ z 1402 ⊹ z 813 ⊛ z 1397 ⊹ z 818 ⊛ z 1404 ⊹ z 823 ⊛ z 1402 ⊹ z 834
    ⊛ z 1407 ⊹ z 838 ⊛ z 1397 ⊹ z 844 ⊛ z 1406 ⊹ ie11 ⊛ z 74 ⊛ z 1419 ⊹ ie22 ⊛ z 77 ⊛ z 1414 ⊹
    ie31 ⊛ z 74 ⊛ z 1418 ⊹ ie31 ⊛ z 80 ⊛ z 1419 ⊹ ie33 ⊛ z 80 ⊛ z 1418 ⊹ if11 ⊛ z 92 ⊛ z 1422 ⊹
    if11 ⊛ z 97 ⊛ z 1421 ⊹ if22 ⊛ z 77 ⊛ z 1414 ⊝ me ⊛ (z 10 ⊛ z 143 ⊛ z 162 ⊹ z 10 ⊛ z 147 ⊛ z
    160 ⊝ z 160 ⊛ z 3490 ⊝ z 162 ⊛ z 3350 ⊝ z 158 ⊛ z 140 ⊛ z 1414 ⊝ z 158 ⊛ z 141 ⊛ z 1397 ⊝ z
    158 ⊛ z 167 ⊛ z 1397 ⊝ z 158 ⊛ z 168 ⊛ z 1414 ⊝ z 163 ⊛ z 164 ⊛ z 1397 ⊝ z 163 ⊛ z 165 ⊛ z
    1414 ⊝ z 9 ⊛ z 143 ⊛ z 165 ⊝ z 9 ⊛ z 143 ⊛ z 3490 ⊝ z 9 ⊛ z 147 ⊛ z 164 ⊝ z 9 ⊛ z 147 ⊛ z 3350
    ⊝ z 163 ⊛ z 10 ⊛ z 143 ⊛ z 1397 ⊝ z 163 ⊛ z 10 ⊛ z 147 ⊛ z 1414) ⊝ mf ⊛ (z 10 ⊛ z 143 ⊛ z 151
    ⊹ z 10 ⊛ z 147 ⊛ z 149 ⊝ z 149 ⊛ z 1405 ⊝ z 151 ⊛ z 1420 ⊝ d2 ⊛ z 152 ⊛ z 1397 ⊝ d2 ⊛ z 153 ⊛
    z 1414 ⊝ d3 ⊛ z 140 ⊛ z 1414 ⊝ d3 ⊛ z 141 ⊛ z 1397 ⊝ d3 ⊛ z 155 ⊛ z 1397 ⊝ d3 ⊛ z 156 ⊛ z 1414
    ⊝ z 9 ⊛ z 143 ⊛ z 153 ⊝ z 9 ⊛ z 143 ⊛ z 1405 ⊝ z 9 ⊛ z 147 ⊛ z 152 ⊝ z 9 ⊛ z 147 ⊛ z 1420 ⊝ d2
    ⊛ z 10 ⊛ z 143 ⊛ z 1397 ⊝ d2 ⊛ z 10 ⊛ z 147 ⊛ z 1414)),
(3609, z 3608 ⊹ z 538 ⊛ z 3353 ⊹ z 544 ⊛ z 3368 ⊹ z 547 ⊛ z 3367 ⊹ z 915 ⊛ z 1517 ⊹ if22 ⊛ z 83 ⊛
    z 549 ⊛ z 1414 ⊝ z 541 ⊛ z 3351 ⊝ z 911 ⊛ z 1438 ⊝ z 920 ⊛ z 1563 ⊝ z 928 ⊛ z 1588 ⊝ z 934 ⊛ z
    1666),
(3610, (z 494 ⊛ z 536 ⊛ z 3598 ⊹ z 494 ⊛ z 1587 ⊛ z 664 ⊝ z 536 ⊛ z 1437 ⊛ z 664) ⊘ pow (z 494) 2),
(3611, z 841 ⊛ z 1397 ⊹ z 547 ⊛ z 841 ⊛ z 1414 ⊹ z 43 ⊛ z 544 ⊛ z 841 ⊛ z 1340 ⊝ z 923 ⊛ z 1563 ⊝
    z 931 ⊛ z 1588 ⊝ z 937 ⊛ z 1666)]

/-- _mooreriderlean2012.py:7832-7948 -/
def part68 : List (ℕ × E) := [
(3612, (z 1437 ⊛ (z 526 ⊛ z 568 ⊹ z 532 ⊛ z 628 ⊝ z 512 ⊛ z 553 ⊝ z 527 ⊛ z 620 ⊝ z 537 ⊛ z 664) ⊝
    z 494 ⊛ (z 526 ⊛ z 3517 ⊹ z 532 ⊛ z 3606 ⊹ z 1652 ⊛ z 568 ⊹ z 1656 ⊛ z 628 ⊝ z 512 ⊛ z 3563 ⊝
    z 527 ⊛ z 3562 ⊝ z 537 ⊛ z 3598 ⊝ z 1657 ⊛ z 553 ⊝ z 1658 ⊛ z 620 ⊝ z 1665 ⊛ z 664)) ⊘ pow (z
    494) 2),
(3613, me ⊛ (z 10 ⊛ z 121 ⊛ z 162 ⊹ z 163 ⊛ z 9 ⊛ z 120 ⊛ z 1397 ⊝ z 158 ⊛ z 122 ⊛ z 1397 ⊝ z 9 ⊛
    z 120 ⊛ z 162 ⊝ z 9 ⊛ z 121 ⊛ z 165 ⊝ z 9 ⊛ z 121 ⊛ z 3490 ⊝ z 10 ⊛ z 120 ⊛ z 165 ⊝ z 10 ⊛ z
    120 ⊛ z 3490 ⊝ z 163 ⊛ z 10 ⊛ z 121 ⊛ z 1397) ⊹ mf ⊛ (z 10 ⊛ z 121 ⊛ z 151 ⊹ d2 ⊛ z 9 ⊛ z 120
    ⊛ z 1397 ⊝ d3 ⊛ z 122 ⊛ z 1397 ⊝ z 9 ⊛ z 120 ⊛ z 151 ⊝ z 9 ⊛ z 121 ⊛ z 153 ⊝ z 9 ⊛ z 121 ⊛ z
    1405 ⊝ z 10 ⊛ z 120 ⊛ z 153 ⊝ z 10 ⊛ z 120 ⊛ z 1405 ⊝ d2 ⊛ z 10 ⊛ z 121 ⊛ z 1397)),
(3614, z 3613 ⊹ z 544 ⊛ z 3336 ⊹ z 547 ⊛ z 3353 ⊹ z 910 ⊛ z 1517 ⊝ z 909 ⊛ z 1438 ⊝ z 911 ⊛ z 1588
    ⊝ z 912 ⊛ z 1563),
(3615, (z 1437 ⊛ (z 519 ⊛ z 568 ⊹ z 487 ⊛ z 496 ⊛ z 620 ⊝ z 504 ⊛ z 553 ⊝ z 533 ⊛ z 664 ⊝ z 487 ⊛
    z 528 ⊛ z 628) ⊝ z 494 ⊛ (z 519 ⊛ z 3517 ⊹ z 1396 ⊛ z 568 ⊹ z 487 ⊛ z 496 ⊛ z 3562 ⊹ z 487 ⊛ z
    1389 ⊛ z 620 ⊝ z 504 ⊛ z 3563 ⊝ z 533 ⊛ z 3598 ⊝ z 1412 ⊛ z 553 ⊝ z 1430 ⊛ z 664 ⊝ z 487 ⊛ z
    528 ⊛ z 3606 ⊝ z 487 ⊛ z 1432 ⊛ z 628)) ⊘ pow (z 494) 2),
(3616, neg me ⊛ (z 158 ⊛ z 125 ⊛ z 1397 ⊹ z 9 ⊛ z 123 ⊛ z 162 ⊹ z 10 ⊛ z 123 ⊛ z 165 ⊹ z 10 ⊛ z
    123 ⊛ z 3490 ⊹ z 10 ⊛ z 124 ⊛ z 162 ⊝ z 9 ⊛ z 124 ⊛ z 165 ⊝ z 9 ⊛ z 124 ⊛ z 3490 ⊝ z 163 ⊛ z 9
    ⊛ z 123 ⊛ z 1397 ⊝ z 163 ⊛ z 10 ⊛ z 124 ⊛ z 1397) ⊝ mf ⊛ (d3 ⊛ z 125 ⊛ z 1397 ⊹ z 9 ⊛ z 123 ⊛
    z 151 ⊹ z 10 ⊛ z 123 ⊛ z 153 ⊹ z 10 ⊛ z 123 ⊛ z 1405 ⊹ z 10 ⊛ z 124 ⊛ z 151 ⊝ z 9 ⊛ z 124 ⊛ z
    153 ⊝ z 9 ⊛ z 124 ⊛ z 1405 ⊝ d2 ⊛ z 9 ⊛ z 123 ⊛ z 1397 ⊝ d2 ⊛ z 10 ⊛ z 124 ⊛ z 1397)),
(3617, z 3616 ⊹ z 544 ⊛ z 3334 ⊹ z 547 ⊛ z 3351 ⊹ z 914 ⊛ z 1517 ⊝ z 910 ⊛ z 1438 ⊝ z 915 ⊛ z 1588
    ⊝ z 916 ⊛ z 1563),
(3618, (z 1437 ⊛ (z 523 ⊛ z 568 ⊹ z 482 ⊛ z 496 ⊛ z 620 ⊝ z 509 ⊛ z 553 ⊝ z 534 ⊛ z 664 ⊝ z 482 ⊛
    z 528 ⊛ z 628) ⊝ z 494 ⊛ (z 523 ⊛ z 3517 ⊹ z 1516 ⊛ z 568 ⊹ z 482 ⊛ z 496 ⊛ z 3562 ⊹ z 482 ⊛ z
    1389 ⊛ z 620 ⊝ z 509 ⊛ z 3563 ⊝ z 534 ⊛ z 3598 ⊝ z 1511 ⊛ z 553 ⊝ z 1513 ⊛ z 664 ⊝ z 482 ⊛ z
    528 ⊛ z 3606 ⊝ z 482 ⊛ z 1432 ⊛ z 628)) ⊘ pow (z 494) 2),
(3619, z 3507 ⊹ z 941 ⊛ z 3610 ⊹ z 947 ⊛ z 3618 ⊹ z 3509 ⊛ z 667 ⊹ z 3609 ⊛ z 668 ⊹ z 3611 ⊛ z 669
    ⊹ z 3614 ⊛ z 665 ⊝ z 940 ⊛ z 3607 ⊝ z 944 ⊛ z 3612 ⊝ z 946 ⊛ z 3615 ⊝ z 3617 ⊛ z 666),
(3620, z 1402 ⊹ z 547 ⊛ z 1418 ⊝ z 52 ⊛ z 1563 ⊝ z 78 ⊛ z 1588),
(3621, neg (z 48) ⊛ z 1588 ⊝ z 52 ⊛ z 1563),
(3622, z 183 ⊛ z 1517 ⊝ z 182 ⊛ z 1438 ⊝ z 210 ⊛ z 1588 ⊝ z 211 ⊛ z 1563),
(3623, z 188 ⊛ z 1517 ⊝ z 187 ⊛ z 1438 ⊝ z 213 ⊛ z 1588 ⊝ z 214 ⊛ z 1563),
(3624, z 193 ⊛ z 1517 ⊝ z 192 ⊛ z 1438 ⊝ z 216 ⊛ z 1588 ⊝ z 217 ⊛ z 1563),
(3625, z 121 ⊛ z 1438 ⊹ z 124 ⊛ z 1517 ⊝ z 128 ⊛ z 1588 ⊝ z 130 ⊛ z 1563),
(3626, z 125 ⊛ z 1517 ⊹ z 132 ⊛ z 1588 ⊝ z 122 ⊛ z 1438 ⊝ z 138 ⊛ z 1563),
(3627, z 123 ⊛ z 1517 ⊝ z 120 ⊛ z 1438 ⊝ z 135 ⊛ z 1588 ⊝ z 137 ⊛ z 1563),
(3628, neg (z 110) ⊛ z 1563 ⊝ z 111 ⊛ z 1588),
(3629, z 123 ⊛ z 1517 ⊹ z 126 ⊛ z 1563 ⊝ z 120 ⊛ z 1438),
(3630, z 121 ⊛ z 1438 ⊹ z 124 ⊛ z 1517 ⊝ z 143 ⊛ z 1588 ⊝ z 145 ⊛ z 1563),
(3631, z 125 ⊛ z 1517 ⊹ z 141 ⊛ z 1588 ⊝ z 122 ⊛ z 1438 ⊝ z 146 ⊛ z 1563),
(3632, z 167 ⊛ z 1588 ⊹ z 169 ⊛ z 1563 ⊝ z 158 ⊛ z 1397 ⊝ z 158 ⊛ z 547 ⊛ z 1414 ⊝ z 158 ⊛ z 43 ⊛
    z 544 ⊛ z 1340),
(3633, z 163 ⊛ z 1397 ⊹ z 163 ⊛ z 547 ⊛ z 1414 ⊹ z 163 ⊛ z 43 ⊛ z 544 ⊛ z 1340 ⊝ z 164 ⊛ z 1588 ⊝
    z 166 ⊛ z 1563),
(3634, z 3490 ⊹ z 547 ⊛ z 3350 ⊝ z 159 ⊛ z 1563 ⊝ z 160 ⊛ z 1588 ⊝ z 544 ⊛ z 3333),
(3635, z 9 ⊛ z 42 ⊝ z 4 ⊛ z 10),
(3636, z 155 ⊛ z 1588 ⊹ z 157 ⊛ z 1563 ⊝ d3 ⊛ z 1397 ⊝ d3 ⊛ z 547 ⊛ z 1414 ⊝ d3 ⊛ z 43 ⊛ z 544 ⊛ z
    1340),
(3637, d2 ⊛ z 1397 ⊹ d2 ⊛ z 547 ⊛ z 1414 ⊹ d2 ⊛ z 43 ⊛ z 544 ⊛ z 1340 ⊝ z 152 ⊛ z 1588 ⊝ z 154 ⊛ z
    1563),
(3638, z 1405 ⊹ z 547 ⊛ z 1420 ⊝ z 148 ⊛ z 1563 ⊝ z 149 ⊛ z 1588 ⊝ d2 ⊛ z 43 ⊛ z 544 ⊛ z 1348),
(3639, T7 ⊛ z 3620 ⊹ T4 ⊛ z 6 ⊛ z 3621 ⊹ T4 ⊛ z 5 ⊛ z 50 ⊛ z 1563 ⊹ z 406 ⊛ (z 106 ⊛ z 3622 ⊹ z
    107 ⊛ z 3623 ⊹ z 108 ⊛ z 3624) ⊹ z 402 ⊛ (z 4 ⊛ z 3625 ⊹ z 32 ⊛ z 3626 ⊝ z 42 ⊛ z 3627) ⊹ z
    3628 ⊛ z 408 ⊹ z 14 ⊛ z 3621 ⊛ z 409 ⊹ z 13 ⊛ z 50 ⊛ z 1563 ⊛ z 409 ⊝ T7 ⊛ z 3621 ⊝ z 404 ⊛ (z
    42 ⊛ z 3629 ⊝ z 4 ⊛ z 3630 ⊝ z 32 ⊛ z 3631 ⊝ z 32 ⊛ z 3632 ⊝ z 717 ⊛ z 734 ⊝ z 718 ⊛ z 3635 ⊝
    z 733 ⊛ z 3633 ⊝ z 734 ⊛ z 3634) ⊝ z 405 ⊛ (z 42 ⊛ z 3629 ⊝ z 4 ⊛ z 3630 ⊝ z 32 ⊛ z 3631 ⊝ z
    32 ⊛ z 3636 ⊝ z 733 ⊛ z 3637 ⊝ z 734 ⊛ z 735 ⊝ z 734 ⊛ z 3638 ⊝ z 736 ⊛ z 3635)),
(3640, neg (z 921) ⊛ z 1563 ⊝ z 929 ⊛ z 1588),
(3641, z 3640 ⊹ z 542 ⊛ z 3617 ⊹ z 947 ⊛ z 1512 ⊝ z 539 ⊛ z 3614 ⊝ z 545 ⊛ z 3509 ⊝ z 550 ⊛ z 3611
    ⊝ z 940 ⊛ z 1564 ⊝ z 944 ⊛ z 1668 ⊝ z 946 ⊛ z 1439),
(3642, z 907 ⊛ z 1517 ⊝ z 906 ⊛ z 1438 ⊝ z 924 ⊛ z 1563 ⊝ z 932 ⊛ z 1588),
(3643, z 950 ⊛ z 3346 ⊹ z 960 ⊛ z 3641 ⊝ z 945 ⊛ z 3344 ⊝ z 964 ⊛ z 3642),
(3644, z 805 ⊛ z 1404 ⊹ z 810 ⊛ z 1402 ⊹ z 819 ⊛ z 1404 ⊹ z 824 ⊛ z 1402 ⊹ z 836 ⊛ z 1407 ⊹ z 845
    ⊛ z 1406 ⊹ ie11 ⊛ z 74 ⊛ z 1443 ⊹ ie31 ⊛ z 74 ⊛ z 1441 ⊹ ie31 ⊛ z 80 ⊛ z 1443 ⊹ ie33 ⊛ z 80 ⊛
    z 1441 ⊹ if11 ⊛ z 92 ⊛ z 1446 ⊹ if11 ⊛ z 97 ⊛ z 1445 ⊹ me ⊛ z 3348 ⊛ (z 162 ⊹ z 9 ⊛ z 147) ⊹
    mf ⊛ z 1444 ⊛ (z 151 ⊹ z 9 ⊛ z 147) ⊹ me ⊛ z 161 ⊛ (z 3490 ⊝ z 10 ⊛ z 147) ⊹ mf ⊛ z 150 ⊛ (z
    1405 ⊝ z 10 ⊛ z 147)),
(3645, z 3644 ⊹ z 544 ⊛ z 3364 ⊹ z 547 ⊛ z 3363 ⊹ z 899 ⊛ z 1438 ⊹ z 900 ⊛ z 1517 ⊝ z 538 ⊛ z 3354
    ⊝ z 541 ⊛ z 3349 ⊝ z 922 ⊛ z 1563 ⊝ z 930 ⊛ z 1588),
(3646, z 3645 ⊹ z 543 ⊛ z 3617 ⊹ z 548 ⊛ z 3609 ⊹ z 551 ⊛ z 3611 ⊹ z 940 ⊛ z 1565 ⊹ z 946 ⊛ z 1450
    ⊝ z 540 ⊛ z 3614 ⊝ z 546 ⊛ z 3509 ⊝ z 941 ⊛ z 1589 ⊝ z 944 ⊛ z 1667 ⊝ z 947 ⊛ z 1514),
(3647, z 950 ⊛ z 3373 ⊹ z 965 ⊛ z 3641 ⊝ z 951 ⊛ z 3344 ⊝ z 964 ⊛ z 3646),
(3648, z 951 ⊛ z 3346 ⊹ z 960 ⊛ z 3646 ⊝ z 945 ⊛ z 3373 ⊝ z 965 ⊛ z 3642),
(3649, z 983 ⊛ z 3643 ⊹ z 997 ⊛ z 3332 ⊝ z 905 ⊛ z 3647 ⊝ z 982 ⊛ z 3648 ⊝ z 999 ⊛ z 3375),
(3650, z 75 ⊛ z 3430 ⊹ z 79 ⊛ z 3439 ⊹ z 93 ⊛ z 3446 ⊹ z 96 ⊛ z 3452 ⊹ z 1441 ⊛ z 812 ⊹ z 1441 ⊛ z
    826 ⊹ z 1441 ⊛ z 828 ⊹ z 1443 ⊛ z 807 ⊹ z 1443 ⊛ z 821 ⊹ z 1443 ⊛ z 829 ⊹ z 1445 ⊛ z 847 ⊹ z
    1445 ⊛ z 848 ⊹ z 1446 ⊛ z 837 ⊹ z 1446 ⊛ z 850 ⊹ ie11 ⊛ z 75 ⊛ z 3417 ⊹ ie31 ⊛ z 75 ⊛ z 3425 ⊹
    ie31 ⊛ z 79 ⊛ z 3417 ⊹ ie33 ⊛ z 79 ⊛ z 3425 ⊹ if11 ⊛ z 93 ⊛ z 3444 ⊹ if11 ⊛ z 96 ⊛ z 3451 ⊹ me
    ⊛ z 3348 ⊛ (z 384 ⊹ z 9 ⊛ z 373 ⊝ z 10 ⊛ z 372) ⊹ mf ⊛ z 1444 ⊛ (z 378 ⊹ z 9 ⊛ z 373 ⊝ z 10 ⊛
    z 372) ⊹ me ⊛ z 161 ⊛ (z 3495 ⊹ z 9 ⊛ z 3493 ⊝ z 9 ⊛ z 372 ⊝ z 10 ⊛ z 373 ⊝ z 10 ⊛ z 3492) ⊹
    mf ⊛ z 150 ⊛ (z 3499 ⊹ z 9 ⊛ z 3493 ⊝ z 9 ⊛ z 372 ⊝ z 10 ⊛ z 373 ⊝ z 10 ⊛ z 3492)),
(3651, z 3650 ⊹ z 543 ⊛ z 3506 ⊹ z 548 ⊛ z 3504 ⊹ z 551 ⊛ z 3505 ⊹ z 1450 ⊛ z 913 ⊹ z 1565 ⊛ z 925
    ⊝ z 540 ⊛ z 3502 ⊝ z 546 ⊛ z 3503 ⊝ z 1514 ⊛ z 917 ⊝ z 1589 ⊛ z 933 ⊝ z 1667 ⊛ z 938),
(3652, z 3651 ⊹ z 967 ⊛ z 3610 ⊹ z 972 ⊛ z 3618 ⊹ z 3355 ⊛ z 665 ⊹ z 3358 ⊛ z 667 ⊹ z 3359 ⊛ z 669
    ⊹ z 3369 ⊛ z 668 ⊝ z 970 ⊛ z 3607 ⊝ z 971 ⊛ z 3615 ⊝ z 975 ⊛ z 3612 ⊝ z 3352 ⊛ z 666),
(3653, z 1441 ⊹ z 52 ⊛ z 1565 ⊹ z 548 ⊛ z 1418 ⊝ z 78 ⊛ z 1589),
(3654, z 52 ⊛ z 1565 ⊝ z 48 ⊛ z 1589),
(3655, z 182 ⊛ z 1450 ⊹ z 211 ⊛ z 1565 ⊝ z 183 ⊛ z 1514 ⊝ z 210 ⊛ z 1589),
(3656, z 187 ⊛ z 1450 ⊹ z 214 ⊛ z 1565 ⊝ z 188 ⊛ z 1514 ⊝ z 213 ⊛ z 1589),
(3657, z 192 ⊛ z 1450 ⊹ z 217 ⊛ z 1565 ⊝ z 193 ⊛ z 1514 ⊝ z 216 ⊛ z 1589),
(3658, z 130 ⊛ z 1565 ⊝ z 121 ⊛ z 1450 ⊝ z 124 ⊛ z 1514 ⊝ z 128 ⊛ z 1589),
(3659, z 122 ⊛ z 1450 ⊹ z 132 ⊛ z 1589 ⊹ z 138 ⊛ z 1565 ⊝ z 125 ⊛ z 1514),
(3660, z 120 ⊛ z 1450 ⊹ z 137 ⊛ z 1565 ⊝ z 123 ⊛ z 1514 ⊝ z 135 ⊛ z 1589),
(3661, z 110 ⊛ z 1565 ⊝ z 111 ⊛ z 1589),
(3662, z 120 ⊛ z 1450 ⊝ z 123 ⊛ z 1514 ⊝ z 126 ⊛ z 1565),
(3663, z 145 ⊛ z 1565 ⊝ z 121 ⊛ z 1450 ⊝ z 124 ⊛ z 1514 ⊝ z 143 ⊛ z 1589),
(3664, z 122 ⊛ z 1450 ⊹ z 141 ⊛ z 1589 ⊹ z 146 ⊛ z 1565 ⊝ z 125 ⊛ z 1514),
(3665, z 167 ⊛ z 1589 ⊹ z 158 ⊛ z 43 ⊛ z 546 ⊛ z 1340 ⊝ z 169 ⊛ z 1565 ⊝ z 158 ⊛ z 548 ⊛ z 1414),
(3666, z 3348 ⊹ z 159 ⊛ z 1565 ⊹ z 546 ⊛ z 3333 ⊹ z 548 ⊛ z 3350 ⊝ z 160 ⊛ z 1589)]

/-- _mooreriderlean2012.py:7949-8057 -/
def part69 : List (ℕ × E) := [
(3667, z 166 ⊛ z 1565 ⊹ z 163 ⊛ z 548 ⊛ z 1414 ⊝ z 164 ⊛ z 1589 ⊝ z 163 ⊛ z 43 ⊛ z 546 ⊛ z 1340),
(3668, z 155 ⊛ z 1589 ⊹ d3 ⊛ z 43 ⊛ z 546 ⊛ z 1340 ⊝ z 157 ⊛ z 1565 ⊝ d3 ⊛ z 548 ⊛ z 1414),
(3669, z 154 ⊛ z 1565 ⊹ d2 ⊛ z 548 ⊛ z 1414 ⊝ z 152 ⊛ z 1589 ⊝ d2 ⊛ z 43 ⊛ z 546 ⊛ z 1340),
(3670, z 1444 ⊹ z 148 ⊛ z 1565 ⊹ z 548 ⊛ z 1420 ⊹ d2 ⊛ z 43 ⊛ z 546 ⊛ z 1348 ⊝ z 149 ⊛ z 1589),
(3671, T7 ⊛ z 3653 ⊹ T4 ⊛ z 6 ⊛ z 3654 ⊹ z 406 ⊛ (z 106 ⊛ z 3655 ⊹ z 107 ⊛ z 3656 ⊹ z 108 ⊛ z
    3657) ⊹ z 402 ⊛ (z 4 ⊛ z 3658 ⊹ z 32 ⊛ z 3659 ⊝ z 42 ⊛ z 3660) ⊹ z 3661 ⊛ z 408 ⊹ z 14 ⊛ z
    3654 ⊛ z 409 ⊝ T7 ⊛ z 3654 ⊝ T4 ⊛ z 5 ⊛ z 50 ⊛ z 1565 ⊝ z 404 ⊛ (z 42 ⊛ z 3662 ⊝ z 4 ⊛ z 3663
    ⊝ z 32 ⊛ z 3664 ⊝ z 32 ⊛ z 3665 ⊝ z 727 ⊛ z 3635 ⊝ z 731 ⊛ z 734 ⊝ z 733 ⊛ z 3667 ⊝ z 734 ⊛ z
    3666) ⊝ z 405 ⊛ (z 42 ⊛ z 3662 ⊝ z 4 ⊛ z 3663 ⊝ z 32 ⊛ z 3664 ⊝ z 32 ⊛ z 3668 ⊝ z 733 ⊛ z 3669
    ⊝ z 734 ⊛ z 742 ⊝ z 734 ⊛ z 3670 ⊝ z 741 ⊛ z 3635) ⊝ z 13 ⊛ z 50 ⊛ z 1565 ⊛ z 409),
(3672, z 950 ⊛ z 3345 ⊹ z 973 ⊛ z 3641 ⊝ z 945 ⊛ z 3360 ⊝ z 978 ⊛ z 3642),
(3673, z 950 ⊛ z 3370 ⊹ z 979 ⊛ z 3641 ⊝ z 951 ⊛ z 3360 ⊝ z 978 ⊛ z 3646),
(3674, z 951 ⊛ z 3345 ⊹ z 973 ⊛ z 3646 ⊝ z 945 ⊛ z 3370 ⊝ z 979 ⊛ z 3642),
(3675, z 983 ⊛ z 3672 ⊹ z 1013 ⊛ z 3332 ⊝ z 905 ⊛ z 3673 ⊝ z 982 ⊛ z 3674 ⊝ z 1014 ⊛ z 3375),
(3676, z 53 ⊛ (z 3393 ⊹ id22 ⊛ z 3388)),
(3677, z 3676 ⊹ z 542 ⊛ z 3506 ⊹ z 1512 ⊛ z 917 ⊝ z 539 ⊛ z 3502 ⊝ z 545 ⊛ z 3503 ⊝ z 550 ⊛ z 3505
    ⊝ z 1439 ⊛ z 913 ⊝ z 1564 ⊛ z 925 ⊝ z 1668 ⊛ z 938),
(3678, z 3677 ⊹ z 954 ⊛ z 3610 ⊹ z 958 ⊛ z 3618 ⊹ z 3337 ⊛ z 665 ⊹ z 3342 ⊛ z 667 ⊹ z 3343 ⊛ z 669
    ⊹ z 3372 ⊛ z 668 ⊝ z 955 ⊛ z 3607 ⊝ z 957 ⊛ z 3615 ⊝ z 961 ⊛ z 3612 ⊝ z 3335 ⊛ z 666),
(3679, z 183 ⊛ z 1512 ⊝ z 182 ⊛ z 1439 ⊝ z 211 ⊛ z 1564),
(3680, z 188 ⊛ z 1512 ⊝ z 187 ⊛ z 1439 ⊝ z 214 ⊛ z 1564),
(3681, z 193 ⊛ z 1512 ⊝ z 192 ⊛ z 1439 ⊝ z 217 ⊛ z 1564),
(3682, z 121 ⊛ z 1439 ⊹ z 124 ⊛ z 1512 ⊝ z 130 ⊛ z 1564),
(3683, z 125 ⊛ z 1512 ⊝ z 122 ⊛ z 1439 ⊝ z 138 ⊛ z 1564),
(3684, z 123 ⊛ z 1512 ⊝ z 120 ⊛ z 1439 ⊝ z 137 ⊛ z 1564),
(3685, z 121 ⊛ z 1439 ⊹ z 124 ⊛ z 1512 ⊝ z 145 ⊛ z 1564),
(3686, z 125 ⊛ z 1512 ⊝ z 122 ⊛ z 1439 ⊝ z 146 ⊛ z 1564),
(3687, z 169 ⊛ z 1564 ⊹ z 158 ⊛ z 43 ⊛ z 545 ⊛ z 1340),
(3688, z 123 ⊛ z 1512 ⊹ z 126 ⊛ z 1564 ⊝ z 120 ⊛ z 1439),
(3689, z 166 ⊛ z 1564 ⊹ z 163 ⊛ z 43 ⊛ z 545 ⊛ z 1340),
(3690, z 159 ⊛ z 1564 ⊝ z 545 ⊛ z 3333),
(3691, z 157 ⊛ z 1564 ⊹ d3 ⊛ z 43 ⊛ z 545 ⊛ z 1340),
(3692, z 154 ⊛ z 1564 ⊹ d2 ⊛ z 43 ⊛ z 545 ⊛ z 1340),
(3693, z 148 ⊛ z 1564 ⊝ d2 ⊛ z 43 ⊛ z 545 ⊛ z 1348),
(3694, T4 ⊛ z 5 ⊛ z 50 ⊛ z 1564 ⊹ z 406 ⊛ (z 106 ⊛ z 3679 ⊹ z 107 ⊛ z 3680 ⊹ z 108 ⊛ z 3681) ⊹ z
    402 ⊛ (z 4 ⊛ z 3682 ⊹ z 32 ⊛ z 3683 ⊝ z 42 ⊛ z 3684) ⊹ z 404 ⊛ (z 4 ⊛ z 3685 ⊹ z 32 ⊛ z 3686 ⊹
    z 32 ⊛ z 3687 ⊝ z 42 ⊛ z 3688 ⊝ z 724 ⊛ z 734 ⊝ z 725 ⊛ z 3635 ⊝ z 733 ⊛ z 3689 ⊝ z 734 ⊛ z
    3690) ⊹ z 405 ⊛ (z 4 ⊛ z 3685 ⊹ z 32 ⊛ z 3686 ⊹ z 32 ⊛ z 3691 ⊝ z 42 ⊛ z 3688 ⊝ z 733 ⊛ z 3692
    ⊝ z 734 ⊛ z 738 ⊝ z 734 ⊛ z 3693 ⊝ z 739 ⊛ z 3635) ⊹ z 13 ⊛ z 50 ⊛ z 1564 ⊛ z 409 ⊝ T4 ⊛ z 6 ⊛
    z 52 ⊛ z 1564 ⊝ z 110 ⊛ z 1564 ⊛ z 408 ⊝ z 14 ⊛ z 52 ⊛ z 1564 ⊛ z 409),
(3695, z 979 ⊛ z 3643 ⊹ z 997 ⊛ z 3370 ⊝ z 973 ⊛ z 3647 ⊝ z 978 ⊛ z 3648 ⊝ z 995 ⊛ z 3345 ⊝ z 999
    ⊛ z 3360),
(3696, z 98 ⊛ z 3463 ⊹ z 99 ⊛ z 3468 ⊹ ig11 ⊛ z 98 ⊛ z 3455 ⊹ ig22 ⊛ z 99 ⊛ z 3466 ⊹ ig31 ⊛ z 98 ⊛
    z 3458 ⊝ mg ⊛ (z 200 ⊛ z 3482 ⊹ z 201 ⊛ z 3484 ⊝ z 205 ⊛ z 3477)),
(3697, z 3696 ⊹ z 903 ⊛ z 3610 ⊹ z 907 ⊛ z 3618 ⊝ z 902 ⊛ z 3607 ⊝ z 906 ⊛ z 3615),
(3698, z 804 ⊛ z 1404 ⊹ z 809 ⊛ z 1402 ⊹ z 814 ⊛ z 1397 ⊹ z 820 ⊛ z 1404 ⊹ z 825 ⊛ z 1402 ⊹ z 835
    ⊛ z 1407 ⊹ z 839 ⊛ z 1397 ⊹ z 846 ⊛ z 1406 ⊹ ie11 ⊛ z 74 ⊛ z 1404 ⊹ ie22 ⊛ z 77 ⊛ z 1397 ⊹
    ie31 ⊛ z 74 ⊛ z 1402 ⊹ ie31 ⊛ z 80 ⊛ z 1404 ⊹ ie33 ⊛ z 80 ⊛ z 1402 ⊹ if11 ⊛ z 92 ⊛ z 1407 ⊹
    if11 ⊛ z 97 ⊛ z 1406 ⊹ if22 ⊛ z 77 ⊛ z 1397 ⊝ n 2 ⊛ me ⊛ (z 10 ⊛ z 147 ⊛ z 162 ⊝ z 162 ⊛ z
    3490 ⊝ z 158 ⊛ z 140 ⊛ z 1397 ⊝ z 158 ⊛ z 168 ⊛ z 1397 ⊝ z 163 ⊛ z 165 ⊛ z 1397 ⊝ z 9 ⊛ z 147
    ⊛ z 165 ⊝ z 9 ⊛ z 147 ⊛ z 3490 ⊝ z 163 ⊛ z 10 ⊛ z 147 ⊛ z 1397) ⊝ n 2 ⊛ mf ⊛ (z 10 ⊛ z 147 ⊛ z
    151 ⊝ z 151 ⊛ z 1405 ⊝ d2 ⊛ z 153 ⊛ z 1397 ⊝ d3 ⊛ z 140 ⊛ z 1397 ⊝ d3 ⊛ z 156 ⊛ z 1397 ⊝ z 9 ⊛
    z 147 ⊛ z 153 ⊝ z 9 ⊛ z 147 ⊛ z 1405 ⊝ d2 ⊛ z 10 ⊛ z 147 ⊛ z 1397)),
(3699, ie11 ⊛ z 81 ⊛ z 1404 ⊹ ie22 ⊛ z 82 ⊛ z 1397 ⊹ ie31 ⊛ z 52 ⊛ z 1404 ⊹ ie31 ⊛ z 81 ⊛ z 1402 ⊹
    ie33 ⊛ z 52 ⊛ z 1402 ⊹ if11 ⊛ z 90 ⊛ z 1407 ⊹ if11 ⊛ z 94 ⊛ z 1406 ⊹ if22 ⊛ z 82 ⊛ z 1397 ⊹ z
    43 ⊛ z 804 ⊛ z 1348 ⊹ z 43 ⊛ z 814 ⊛ z 1340 ⊹ z 43 ⊛ z 820 ⊛ z 1348 ⊹ z 43 ⊛ z 839 ⊛ z 1340 ⊹
    z 11 ⊛ z 43 ⊛ z 835 ⊛ z 1348 ⊹ z 12 ⊛ z 43 ⊛ z 846 ⊛ z 1348 ⊝ me ⊛ (z 162 ⊛ z 3333 ⊹ z 158 ⊛ z
    146 ⊛ z 1397 ⊹ z 9 ⊛ z 147 ⊛ z 3333 ⊹ z 10 ⊛ z 145 ⊛ z 162 ⊹ z 10 ⊛ z 147 ⊛ z 159 ⊹ z 163 ⊛ z
    9 ⊛ z 126 ⊛ z 1397 ⊝ z 159 ⊛ z 3490 ⊝ z 158 ⊛ z 169 ⊛ z 1397 ⊝ z 163 ⊛ z 166 ⊛ z 1397 ⊝ z 9 ⊛
    z 126 ⊛ z 162 ⊝ z 9 ⊛ z 145 ⊛ z 165 ⊝ z 9 ⊛ z 145 ⊛ z 3490 ⊝ z 9 ⊛ z 147 ⊛ z 166 ⊝ z 10 ⊛ z
    126 ⊛ z 165 ⊝ z 10 ⊛ z 126 ⊛ z 3490 ⊝ z 158 ⊛ z 43 ⊛ z 140 ⊛ z 1340 ⊝ z 158 ⊛ z 43 ⊛ z 168 ⊛ z
    1340 ⊝ z 163 ⊛ z 10 ⊛ z 145 ⊛ z 1397 ⊝ z 163 ⊛ z 43 ⊛ z 165 ⊛ z 1340 ⊝ z 163 ⊛ z 10 ⊛ z 43 ⊛ z
    147 ⊛ z 1340) ⊝ mf ⊛ (d3 ⊛ z 146 ⊛ z 1397 ⊹ z 10 ⊛ z 145 ⊛ z 151 ⊹ z 10 ⊛ z 147 ⊛ z 148 ⊹ d2 ⊛
    z 9 ⊛ z 126 ⊛ z 1397 ⊹ d2 ⊛ z 43 ⊛ z 151 ⊛ z 1348 ⊹ d2 ⊛ z 9 ⊛ z 43 ⊛ z 147 ⊛ z 1348 ⊝ z 148 ⊛
    z 1405 ⊝ d2 ⊛ z 154 ⊛ z 1397 ⊝ d3 ⊛ z 157 ⊛ z 1397 ⊝ z 9 ⊛ z 126 ⊛ z 151 ⊝ z 9 ⊛ z 145 ⊛ z 153
    ⊝ z 9 ⊛ z 145 ⊛ z 1405 ⊝ z 9 ⊛ z 147 ⊛ z 154 ⊝ z 10 ⊛ z 126 ⊛ z 153 ⊝ z 10 ⊛ z 126 ⊛ z 1405 ⊝
    d2 ⊛ z 10 ⊛ z 145 ⊛ z 1397 ⊝ d2 ⊛ z 43 ⊛ z 153 ⊛ z 1340 ⊝ d3 ⊛ z 43 ⊛ z 140 ⊛ z 1340 ⊝ d3 ⊛ z
    43 ⊛ z 156 ⊛ z 1340 ⊝ d2 ⊛ z 10 ⊛ z 43 ⊛ z 147 ⊛ z 1340)),
(3700, z 804 ⊛ z 1419 ⊹ z 809 ⊛ z 1418 ⊹ z 814 ⊛ z 1414 ⊹ z 820 ⊛ z 1419 ⊹ z 825 ⊛ z 1418 ⊹ z 835
    ⊛ z 1422 ⊹ z 839 ⊛ z 1414 ⊹ z 846 ⊛ z 1421 ⊹ ie11 ⊛ z 73 ⊛ z 1404 ⊹ ie22 ⊛ z 76 ⊛ z 1397 ⊹
    ie31 ⊛ z 73 ⊛ z 1402 ⊹ ie31 ⊛ z 78 ⊛ z 1404 ⊹ ie33 ⊛ z 78 ⊛ z 1402 ⊹ if11 ⊛ z 91 ⊛ z 1407 ⊹
    if11 ⊛ z 95 ⊛ z 1406 ⊹ if22 ⊛ z 76 ⊛ z 1397 ⊝ me ⊛ (z 10 ⊛ z 143 ⊛ z 162 ⊹ z 10 ⊛ z 147 ⊛ z
    160 ⊝ z 160 ⊛ z 3490 ⊝ z 162 ⊛ z 3350 ⊝ z 158 ⊛ z 140 ⊛ z 1414 ⊝ z 158 ⊛ z 141 ⊛ z 1397 ⊝ z
    158 ⊛ z 167 ⊛ z 1397 ⊝ z 158 ⊛ z 168 ⊛ z 1414 ⊝ z 163 ⊛ z 164 ⊛ z 1397 ⊝ z 163 ⊛ z 165 ⊛ z
    1414 ⊝ z 9 ⊛ z 143 ⊛ z 165 ⊝ z 9 ⊛ z 143 ⊛ z 3490 ⊝ z 9 ⊛ z 147 ⊛ z 164 ⊝ z 9 ⊛ z 147 ⊛ z 3350
    ⊝ z 163 ⊛ z 10 ⊛ z 143 ⊛ z 1397 ⊝ z 163 ⊛ z 10 ⊛ z 147 ⊛ z 1414) ⊝ mf ⊛ (z 10 ⊛ z 143 ⊛ z 151
    ⊹ z 10 ⊛ z 147 ⊛ z 149 ⊝ z 149 ⊛ z 1405 ⊝ z 151 ⊛ z 1420 ⊝ d2 ⊛ z 152 ⊛ z 1397 ⊝ d2 ⊛ z 153 ⊛
    z 1414 ⊝ d3 ⊛ z 140 ⊛ z 1414 ⊝ d3 ⊛ z 141 ⊛ z 1397 ⊝ d3 ⊛ z 155 ⊛ z 1397 ⊝ d3 ⊛ z 156 ⊛ z 1414
    ⊝ z 9 ⊛ z 143 ⊛ z 153 ⊝ z 9 ⊛ z 143 ⊛ z 1405 ⊝ z 9 ⊛ z 147 ⊛ z 152 ⊝ z 9 ⊛ z 147 ⊛ z 1420 ⊝ d2
    ⊛ z 10 ⊛ z 143 ⊛ z 1397 ⊝ d2 ⊛ z 10 ⊛ z 147 ⊛ z 1414)),
(3701, z 3698 ⊹ z 538 ⊛ z 3613 ⊹ z 544 ⊛ z 3699 ⊹ z 547 ⊛ z 3700 ⊹ z 888 ⊛ z 1517 ⊹ if22 ⊛ z 83 ⊛
    z 549 ⊛ z 1397 ⊝ z 541 ⊛ z 3616 ⊝ z 887 ⊛ z 1438 ⊝ z 918 ⊛ z 1563 ⊝ z 926 ⊛ z 1588 ⊝ z 935 ⊛ z
    1666),
(3702, z 3701 ⊹ z 538 ⊛ z 3614 ⊹ z 544 ⊛ z 3509 ⊹ z 547 ⊛ z 3609 ⊹ z 549 ⊛ z 3611 ⊹ z 947 ⊛ z 1517
    ⊝ z 541 ⊛ z 3617 ⊝ z 940 ⊛ z 1563 ⊝ z 941 ⊛ z 1588 ⊝ z 944 ⊛ z 1666 ⊝ z 946 ⊛ z 1438),
(3703, z 542 ⊛ z 3616 ⊹ z 888 ⊛ z 1512 ⊝ z 539 ⊛ z 3613 ⊝ z 545 ⊛ z 3699 ⊝ z 887 ⊛ z 1439 ⊝ z 918
    ⊛ z 1564 ⊝ z 935 ⊛ z 1668 ⊝ if22 ⊛ z 83 ⊛ z 550 ⊛ z 1397),
(3704, z 3703 ⊹ z 538 ⊛ z 3337 ⊹ z 544 ⊛ z 3342 ⊹ z 547 ⊛ z 3372 ⊹ z 549 ⊛ z 3343 ⊹ z 958 ⊛ z 1517
    ⊝ z 541 ⊛ z 3335 ⊝ z 954 ⊛ z 1588 ⊝ z 955 ⊛ z 1563 ⊝ z 957 ⊛ z 1438 ⊝ z 961 ⊛ z 1666),
(3705, z 949 ⊛ z 3344 ⊹ z 964 ⊛ z 3702 ⊝ z 950 ⊛ z 3704 ⊝ z 963 ⊛ z 3641),
(3706, z 905 ⊛ z 3370 ⊝ z 973 ⊛ z 3332 ⊝ z 983 ⊛ z 3345),
(3707, z 949 ⊛ z 3346 ⊹ z 960 ⊛ z 3702 ⊝ z 945 ⊛ z 3704 ⊝ z 963 ⊛ z 3642)]

/-- _mooreriderlean2012.py:8058-8202 -/
def part70 : List (ℕ × E) := [
(3708, z 978 ⊛ z 3332 ⊹ z 983 ⊛ z 3360 ⊝ z 979 ⊛ z 3375 ⊝ z 982 ⊛ z 3370),
(3709, z 804 ⊛ z 1443 ⊹ z 809 ⊛ z 1441 ⊹ z 820 ⊛ z 1443 ⊹ z 825 ⊛ z 1441 ⊹ z 835 ⊛ z 1446 ⊹ z 846
    ⊛ z 1445 ⊹ ie11 ⊛ z 75 ⊛ z 1404 ⊹ ie31 ⊛ z 75 ⊛ z 1402 ⊹ ie31 ⊛ z 79 ⊛ z 1404 ⊹ ie33 ⊛ z 79 ⊛
    z 1402 ⊹ if11 ⊛ z 93 ⊛ z 1407 ⊹ if11 ⊛ z 96 ⊛ z 1406 ⊹ me ⊛ z 3348 ⊛ (z 162 ⊹ z 9 ⊛ z 147) ⊹
    mf ⊛ z 1444 ⊛ (z 151 ⊹ z 9 ⊛ z 147) ⊹ me ⊛ z 161 ⊛ (z 3490 ⊝ z 10 ⊛ z 147) ⊹ mf ⊛ z 150 ⊛ (z
    1405 ⊝ z 10 ⊛ z 147)),
(3710, z 3709 ⊹ z 543 ⊛ z 3616 ⊹ z 548 ⊛ z 3700 ⊹ z 887 ⊛ z 1450 ⊹ z 918 ⊛ z 1565 ⊹ if22 ⊛ z 83 ⊛
    z 551 ⊛ z 1397 ⊝ z 540 ⊛ z 3613 ⊝ z 546 ⊛ z 3699 ⊝ z 888 ⊛ z 1514 ⊝ z 926 ⊛ z 1589 ⊝ z 935 ⊛ z
    1667),
(3711, z 3710 ⊹ z 538 ⊛ z 3355 ⊹ z 544 ⊛ z 3358 ⊹ z 547 ⊛ z 3369 ⊹ z 549 ⊛ z 3359 ⊹ z 972 ⊛ z 1517
    ⊝ z 541 ⊛ z 3352 ⊝ z 967 ⊛ z 1588 ⊝ z 970 ⊛ z 1563 ⊝ z 971 ⊛ z 1438 ⊝ z 975 ⊛ z 1666),
(3712, z 907 ⊛ z 1517 ⊝ z 902 ⊛ z 1563 ⊝ z 903 ⊛ z 1588 ⊝ z 906 ⊛ z 1438),
(3713, z 905 ⊛ z 3711 ⊝ z 973 ⊛ z 3712 ⊝ z 981 ⊛ z 3345),
(3714, z 977 ⊛ z 3375 ⊹ z 982 ⊛ z 3711 ⊝ z 978 ⊛ z 3712 ⊝ z 981 ⊛ z 3360),
(3715, z 949 ⊛ z 3373 ⊹ z 965 ⊛ z 3702 ⊝ z 951 ⊛ z 3704 ⊝ z 963 ⊛ z 3646),
(3716, z 905 ⊛ z 3360 ⊝ z 973 ⊛ z 3375 ⊝ z 982 ⊛ z 3345),
(3717, z 977 ⊛ z 3332 ⊹ z 983 ⊛ z 3711 ⊝ z 979 ⊛ z 3712 ⊝ z 981 ⊛ z 3370),
(3718, z 989 ⊛ z 3706 ⊹ z 990 ⊛ z 3705 ⊹ z 993 ⊛ z 3708 ⊹ z 994 ⊛ z 3707 ⊹ z 995 ⊛ z 3713 ⊹ z 996
    ⊛ z 3647 ⊹ z 999 ⊛ z 3714 ⊹ z 1000 ⊛ z 3648 ⊝ z 991 ⊛ z 3716 ⊝ z 992 ⊛ z 3715 ⊝ z 997 ⊛ z 3717
    ⊝ z 998 ⊛ z 3643),
(3719, (z 3718 ⊛ (z 1005 ⊛ z 985 ⊹ z 1022 ⊛ z 987 ⊝ z 1015 ⊛ z 986 ⊝ z 1026 ⊛ z 988) ⊝ z 1001 ⊛ (z
    3377 ⊛ z 985 ⊹ z 3649 ⊛ z 987 ⊹ z 1015 ⊛ (z 3694 ⊝ z 3678) ⊝ z 1026 ⊛ z 3697 ⊝ z 3675 ⊛ z 986
    ⊝ z 3695 ⊛ z 988 ⊝ z 1005 ⊛ (z 3639 ⊝ z 3619) ⊝ z 1022 ⊛ (z 3671 ⊝ z 3652))) ⊘ pow (z 1001) 2),
(3720, z 902 ⊛ z 1569 ⊹ z 906 ⊛ z 1467 ⊝ z 903 ⊛ z 1592 ⊝ z 907 ⊛ z 1522),
(3721, z 914 ⊛ z 1520 ⊹ z 916 ⊛ z 1568 ⊝ z 910 ⊛ z 1464),
(3722, z 910 ⊛ z 1520 ⊹ z 912 ⊛ z 1568 ⊝ z 909 ⊛ z 1464),
(3723, z 43 ⊛ (z 88 ⊛ z 843 ⊹ z 833 ⊛ z 1452 ⊹ if11 ⊛ z 88 ⊛ z 94 ⊹ if11 ⊛ z 90 ⊛ z 1452)),
(3724, z 916 ⊛ z 1520 ⊹ z 919 ⊛ z 1568 ⊹ z 936 ⊛ z 1682 ⊝ z 545 ⊛ z 3723 ⊝ z 912 ⊛ z 1464),
(3725, z 923 ⊛ z 1568 ⊹ z 937 ⊛ z 1682),
(3726, z 542 ⊛ z 3721 ⊹ z 921 ⊛ z 1568 ⊹ z 955 ⊛ z 1568 ⊹ z 958 ⊛ z 1520 ⊹ z 961 ⊛ z 1682 ⊝ z 539
    ⊛ z 3722 ⊝ z 545 ⊛ z 3724 ⊝ z 550 ⊛ z 3725 ⊝ z 957 ⊛ z 1464),
(3727, z 906 ⊛ z 1467 ⊹ z 924 ⊛ z 1569 ⊝ z 907 ⊛ z 1522 ⊝ z 932 ⊛ z 1592),
(3728, z 907 ⊛ z 1520 ⊹ z 924 ⊛ z 1568 ⊝ z 906 ⊛ z 1464),
(3729, z 921 ⊛ z 1569 ⊝ z 929 ⊛ z 1592),
(3730, z 910 ⊛ z 1467 ⊹ z 916 ⊛ z 1569 ⊝ z 914 ⊛ z 1522 ⊝ z 915 ⊛ z 1592),
(3731, z 909 ⊛ z 1467 ⊹ z 912 ⊛ z 1569 ⊝ z 910 ⊛ z 1522 ⊝ z 911 ⊛ z 1592),
(3732, z 93 ⊛ z 843 ⊹ z 833 ⊛ z 1465 ⊹ if11 ⊛ z 43 ⊛ z 88 ⊛ z 96 ⊹ if11 ⊛ z 43 ⊛ z 93 ⊛ z 1452),
(3733, z 91 ⊛ z 843 ⊹ z 833 ⊛ z 1458 ⊹ if11 ⊛ z 43 ⊛ z 88 ⊛ z 95 ⊹ if11 ⊛ z 43 ⊛ z 91 ⊛ z 1452),
(3734, z 3732 ⊹ z 548 ⊛ z 3733 ⊹ z 912 ⊛ z 1467 ⊹ z 919 ⊛ z 1569 ⊝ z 546 ⊛ z 3723 ⊝ z 916 ⊛ z 1522
    ⊝ z 927 ⊛ z 1592 ⊝ z 936 ⊛ z 1681),
(3735, z 923 ⊛ z 1569 ⊝ z 931 ⊛ z 1592 ⊝ z 937 ⊛ z 1681),
(3736, z 3729 ⊹ z 542 ⊛ z 3730 ⊹ z 970 ⊛ z 1568 ⊹ z 972 ⊛ z 1520 ⊹ z 975 ⊛ z 1682 ⊝ z 539 ⊛ z 3731
    ⊝ z 545 ⊛ z 3734 ⊝ z 550 ⊛ z 3735 ⊝ z 971 ⊛ z 1464),
(3737, z 964 ⊛ z 3727 ⊹ z 973 ⊛ z 3726 ⊝ z 960 ⊛ z 3736 ⊝ z 978 ⊛ z 3728),
(3738, z 93 ⊛ z 845 ⊹ z 836 ⊛ z 1465 ⊹ if11 ⊛ z 93 ⊛ z 96 ⊹ if11 ⊛ z 93 ⊛ z 1465),
(3739, z 91 ⊛ z 845 ⊹ z 836 ⊛ z 1458 ⊹ if11 ⊛ z 91 ⊛ z 1465 ⊹ if11 ⊛ z 93 ⊛ z 95),
(3740, if11 ⊛ z 90 ⊛ z 1465 ⊹ if11 ⊛ z 93 ⊛ z 94 ⊹ z 43 ⊛ z 88 ⊛ z 845 ⊹ z 43 ⊛ z 836 ⊛ z 1452),
(3741, z 3738 ⊹ z 548 ⊛ z 3739 ⊹ z 922 ⊛ z 1569 ⊝ z 546 ⊛ z 3740 ⊝ z 899 ⊛ z 1467 ⊝ z 900 ⊛ z 1522
    ⊝ z 930 ⊛ z 1592),
(3742, z 93 ⊛ z 844 ⊹ z 834 ⊛ z 1465 ⊹ if11 ⊛ z 91 ⊛ z 96 ⊹ if11 ⊛ z 93 ⊛ z 1458),
(3743, z 91 ⊛ z 844 ⊹ z 834 ⊛ z 1458 ⊹ if11 ⊛ z 91 ⊛ z 95 ⊹ if11 ⊛ z 91 ⊛ z 1458),
(3744, if11 ⊛ z 90 ⊛ z 1458 ⊹ if11 ⊛ z 91 ⊛ z 94 ⊹ z 43 ⊛ z 88 ⊛ z 844 ⊹ z 43 ⊛ z 834 ⊛ z 1452),
(3745, z 3742 ⊹ z 548 ⊛ z 3743 ⊹ z 911 ⊛ z 1467 ⊹ z 920 ⊛ z 1569 ⊝ z 546 ⊛ z 3744 ⊝ z 915 ⊛ z 1522
    ⊝ z 928 ⊛ z 1592 ⊝ z 934 ⊛ z 1681),
(3746, z 3741 ⊹ z 543 ⊛ z 3730 ⊹ z 548 ⊛ z 3745 ⊹ z 551 ⊛ z 3735 ⊹ z 970 ⊛ z 1569 ⊹ z 971 ⊛ z 1467
    ⊝ z 540 ⊛ z 3731 ⊝ z 546 ⊛ z 3734 ⊝ z 967 ⊛ z 1592 ⊝ z 972 ⊛ z 1522 ⊝ z 975 ⊛ z 1681),
(3747, z 899 ⊛ z 1464 ⊹ z 900 ⊛ z 1520 ⊹ z 922 ⊛ z 1568 ⊝ z 545 ⊛ z 3740),
(3748, z 915 ⊛ z 1520 ⊹ z 920 ⊛ z 1568 ⊹ z 934 ⊛ z 1682 ⊝ z 545 ⊛ z 3744 ⊝ z 911 ⊛ z 1464),
(3749, z 3747 ⊹ z 543 ⊛ z 3721 ⊹ z 548 ⊛ z 3748 ⊹ z 551 ⊛ z 3725 ⊹ z 955 ⊛ z 1569 ⊹ z 957 ⊛ z 1467
    ⊝ z 540 ⊛ z 3722 ⊝ z 546 ⊛ z 3724 ⊝ z 954 ⊛ z 1592 ⊝ z 958 ⊛ z 1522 ⊝ z 961 ⊛ z 1681),
(3750, z 964 ⊛ z 3746 ⊹ z 979 ⊛ z 3726 ⊝ z 965 ⊛ z 3736 ⊝ z 978 ⊛ z 3749),
(3751, z 902 ⊛ z 1568 ⊹ z 907 ⊛ z 1520 ⊝ z 906 ⊛ z 1464),
(3752, z 965 ⊛ z 3727 ⊹ z 973 ⊛ z 3749 ⊝ z 960 ⊛ z 3746 ⊝ z 979 ⊛ z 3728),
(3753, z 983 ⊛ z 3737 ⊹ z 1003 ⊛ z 3720 ⊝ z 905 ⊛ z 3750 ⊝ z 982 ⊛ z 3752 ⊝ z 1004 ⊛ z 3751),
(3754, z 6 ⊛ (pow (z 3) 2 ⊹ pow (z 4) 2) ⊛ z 1593),
(3755, neg (z 3754) ⊛ q4p ⊝ z 3 ⊛ z 5 ⊛ z 43 ⊛ z 1593 ⊛ q3p ⊝ z 43 ⊛ z 1570 ⊛ z 271),
(3756, z 5 ⊛ (pow (z 3) 2 ⊹ pow (z 4) 2) ⊛ z 1593),
(3757, z 3756 ⊛ q4p ⊹ z 1593 ⊛ z 278 ⊹ z 43 ⊛ z 1570 ⊛ z 268 ⊝ z 3 ⊛ z 6 ⊛ z 43 ⊛ z 1593 ⊛ q3p),
(3758, z 47 ⊛ z 1593 ⊹ z 51 ⊛ z 1570),
(3759, z 48 ⊛ z 1593 ⊹ z 52 ⊛ z 1570),
(3760, ic33 ⊛ z 3759 ⊝ ic31 ⊛ z 50 ⊛ z 1570),
(3761, z 3758 ⊛ z 758 ⊹ z 3760 ⊛ z 266 ⊝ z 3759 ⊛ z 759 ⊝ ic22 ⊛ z 3758 ⊛ z 267),
(3762, (z 3 ⊛ z 5 ⊛ z 31 ⊹ z 3 ⊛ z 6 ⊛ z 41 ⊝ z 4 ⊛ z 5 ⊛ z 32 ⊝ z 4 ⊛ z 6 ⊛ z 42) ⊛ z 1593),
(3763, z 5 ⊛ (z 6 ⊝ z 3 ⊛ z 42 ⊝ z 4 ⊛ z 41) ⊛ z 1593),
(3764, z 3762 ⊛ q4p ⊹ z 1570 ⊛ z 276 ⊹ z 1593 ⊛ z 275 ⊝ n 2 ⊛ z 3763 ⊛ q5p),
(3765, ic31 ⊛ z 3759 ⊝ ic11 ⊛ z 50 ⊛ z 1570),
(3766, z 3759 ⊛ z 757 ⊹ z 3765 ⊛ z 267 ⊹ z 50 ⊛ z 1570 ⊛ z 758 ⊝ z 3760 ⊛ z 265),
(3767, z 64 ⊛ z 1570 ⊹ z 65 ⊛ z 1593),
(3768, z 61 ⊛ z 1570 ⊝ z 62 ⊛ z 1593),
(3769, z 3767 ⊛ z 781 ⊹ id11 ⊛ z 3768 ⊛ z 283 ⊝ z 3768 ⊛ z 783 ⊝ id11 ⊛ z 3767 ⊛ z 281),
(3770, ic22 ⊛ z 3758 ⊛ z 265 ⊝ z 3758 ⊛ z 757 ⊝ z 3765 ⊛ z 266 ⊝ z 50 ⊛ z 1570 ⊛ z 759),
(3771, neg (z 7) ⊛ z 3754 ⊝ z 8 ⊛ z 3756),
(3772, z 3 ⊛ (z 5 ⊛ z 7 ⊝ z 6 ⊛ z 8) ⊛ z 1593),
(3773, z 3771 ⊛ q4p ⊹ z 43 ⊛ z 1570 ⊛ z 285 ⊝ z 43 ⊛ z 3772 ⊛ q3p ⊝ z 1593 ⊛ z 286),
(3774, z 3758 ⊛ z 783 ⊹ id11 ⊛ z 3767 ⊛ z 282 ⊝ z 3767 ⊛ z 782 ⊝ id22 ⊛ z 3758 ⊛ z 283),
(3775, z 7 ⊛ z 3756 ⊝ z 8 ⊛ z 3754),
(3776, z 3 ⊛ (z 5 ⊛ z 8 ⊹ z 6 ⊛ z 7) ⊛ z 1593),
(3777, z 3775 ⊛ q4p ⊹ z 1593 ⊛ z 290 ⊹ z 43 ⊛ z 1570 ⊛ z 289 ⊝ z 43 ⊛ z 3776 ⊛ q3p),
(3778, z 3768 ⊛ z 782 ⊹ id22 ⊛ z 3758 ⊛ z 281 ⊝ z 3758 ⊛ z 781 ⊝ id11 ⊛ z 3768 ⊛ z 282),
(3779, z 4 ⊛ z 5 ⊛ z 10 ⊛ z 1593),
(3780, z 3 ⊛ z 5 ⊛ z 10 ⊛ z 1593),
(3781, z 31 ⊛ z 3780 ⊹ z 4 ⊛ z 6 ⊛ z 69 ⊛ z 1593 ⊝ z 32 ⊛ z 3779 ⊝ z 3 ⊛ z 6 ⊛ z 29 ⊛ z 1593),
(3782, z 4 ⊛ z 6 ⊛ z 10 ⊛ z 1593),
(3783, z 3 ⊛ z 6 ⊛ z 10 ⊛ z 1593),
(3784, z 5 ⊛ z 26 ⊛ z 1593 ⊹ z 5 ⊛ z 6 ⊛ z 10 ⊛ z 1593 ⊝ z 31 ⊛ z 3782 ⊝ z 32 ⊛ z 3783 ⊝ z 3 ⊛ z 6
    ⊛ z 72 ⊛ z 1593 ⊝ z 4 ⊛ z 6 ⊛ z 71 ⊛ z 1593),
(3785, z 3 ⊛ z 5 ⊛ z 9 ⊛ z 1593),
(3786, z 4 ⊛ z 5 ⊛ z 9 ⊛ z 1593),
(3787, z 31 ⊛ z 3786 ⊹ z 32 ⊛ z 3785 ⊹ z 4 ⊛ z 6 ⊛ z 70 ⊛ z 1593 ⊹ z 9 ⊛ pow (z 6) 2 ⊛ z 1593 ⊝ z
    5 ⊛ z 23 ⊛ z 1593 ⊝ z 3 ⊛ z 6 ⊛ z 66 ⊛ z 1593),
(3788, z 3781 ⊛ q4p ⊹ z 3784 ⊛ q5p ⊹ z 3787 ⊛ q7p ⊹ z 1593 ⊛ z 299 ⊹ z 43 ⊛ z 1570 ⊛ z 308 ⊝ z 43
    ⊛ z 3785 ⊛ q3p),
(3789, z 27 ⊛ z 3780 ⊹ z 29 ⊛ z 3785 ⊹ z 30 ⊛ z 3786 ⊝ z 66 ⊛ z 3779),
(3790, z 4 ⊛ z 6 ⊛ z 9 ⊛ z 1593),
(3791, z 3 ⊛ z 6 ⊛ z 9 ⊛ z 1593),
(3792, z 30 ⊛ z 3791 ⊹ z 5 ⊛ z 9 ⊛ z 25 ⊛ z 1593 ⊝ z 29 ⊛ z 3790 ⊝ z 67 ⊛ z 3779 ⊝ z 68 ⊛ z 3780 ⊝
    z 6 ⊛ z 10 ⊛ z 24 ⊛ z 1593),
(3793, n 2 ⊛ z 30 ⊛ z 3780 ⊝ n 2 ⊛ z 29 ⊛ z 3779 ⊝ n 2 ⊛ z 6 ⊛ z 10 ⊛ z 25 ⊛ z 1593),
(3794, z 3789 ⊛ q4p ⊹ z 3792 ⊛ q5p ⊹ z 3793 ⊛ q7p ⊹ z 1593 ⊛ z 317 ⊹ z 43 ⊛ z 1570 ⊛ z 268 ⊝ z 3 ⊛
    z 6 ⊛ z 43 ⊛ z 1593 ⊛ q3p),
(3795, z 76 ⊛ z 1593 ⊹ z 82 ⊛ z 1570),
(3796, z 73 ⊛ z 1593 ⊹ z 81 ⊛ z 1570),
(3797, z 52 ⊛ z 1570 ⊹ z 78 ⊛ z 1593),
(3798, ie31 ⊛ z 3796 ⊹ ie33 ⊛ z 3797),
(3799, z 3795 ⊛ z 801 ⊹ z 3798 ⊛ z 293 ⊝ z 3797 ⊛ z 802 ⊝ ie22 ⊛ z 3795 ⊛ z 294)]

/-- _mooreriderlean2012.py:8203-8336 -/
def part71 : List (ℕ × E) := [
(3800, z 31 ⊛ z 3785 ⊹ z 3 ⊛ z 6 ⊛ z 27 ⊛ z 1593 ⊹ z 4 ⊛ z 6 ⊛ z 28 ⊛ z 1593 ⊝ z 32 ⊛ z 3786),
(3801, z 41 ⊛ z 3786 ⊹ z 42 ⊛ z 3785 ⊹ z 4 ⊛ z 5 ⊛ z 27 ⊛ z 1593 ⊝ z 6 ⊛ z 23 ⊛ z 1593 ⊝ z 3 ⊛ z 5
    ⊛ z 28 ⊛ z 1593 ⊝ z 5 ⊛ z 6 ⊛ z 9 ⊛ z 1593),
(3802, z 3800 ⊛ q4p ⊹ z 3801 ⊛ q5p ⊹ z 43 ⊛ z 3780 ⊛ q3p ⊹ z 1593 ⊛ z 311 ⊹ z 43 ⊛ z 1570 ⊛ z 313),
(3803, ie11 ⊛ z 3796 ⊹ ie31 ⊛ z 3797),
(3804, z 3797 ⊛ z 800 ⊹ z 3803 ⊛ z 294 ⊝ z 3796 ⊛ z 801 ⊝ z 3798 ⊛ z 292),
(3805, z 94 ⊛ z 1570 ⊹ z 95 ⊛ z 1593 ⊹ z 91 ⊛ q5p ⊹ z 92 ⊛ q4p ⊹ z 93 ⊛ q7p ⊹ z 43 ⊛ z 88 ⊛ q3p),
(3806, z 90 ⊛ z 1570 ⊹ z 91 ⊛ z 1593 ⊹ z 1455 ⊛ q4p ⊹ z 1458 ⊛ q5p ⊹ z 1465 ⊛ q7p ⊹ z 43 ⊛ z 1452
    ⊛ q3p),
(3807, z 830 ⊛ z 3805 ⊹ if11 ⊛ z 323 ⊛ z 3806 ⊝ z 832 ⊛ z 3806 ⊝ if11 ⊛ z 321 ⊛ z 3805),
(3808, z 3796 ⊛ z 802 ⊹ ie22 ⊛ z 3795 ⊛ z 292 ⊝ z 3795 ⊛ z 800 ⊝ z 3803 ⊛ z 293),
(3809, z 11 ⊛ z 3781 ⊹ z 12 ⊛ z 80 ⊛ q8p ⊝ z 12 ⊛ z 3789 ⊝ z 11 ⊛ z 80 ⊛ z 1683 ⊝ z 12 ⊛ z 74 ⊛ z
    1683 ⊝ z 11 ⊛ z 74 ⊛ q8p ⊝ z 11 ⊛ z 319 ⊝ z 12 ⊛ z 302),
(3810, z 11 ⊛ z 3784 ⊹ z 12 ⊛ z 78 ⊛ q8p ⊝ z 12 ⊛ z 3792 ⊝ z 11 ⊛ z 78 ⊛ z 1683 ⊝ z 12 ⊛ z 73 ⊛ z
    1683 ⊝ z 11 ⊛ z 73 ⊛ q8p ⊝ z 11 ⊛ z 317 ⊝ z 12 ⊛ z 299),
(3811, z 11 ⊛ z 3787 ⊹ z 12 ⊛ z 79 ⊛ q8p ⊝ z 12 ⊛ z 3793 ⊝ z 11 ⊛ z 79 ⊛ z 1683 ⊝ z 12 ⊛ z 75 ⊛ z
    1683 ⊝ z 11 ⊛ z 75 ⊛ q8p ⊝ z 11 ⊛ z 318 ⊝ z 12 ⊛ z 307),
(3812, z 3 ⊛ z 6 ⊛ z 12 ⊛ z 1593 ⊹ z 12 ⊛ z 32 ⊛ q8p ⊝ z 11 ⊛ z 3785 ⊝ z 11 ⊛ z 32 ⊛ z 1683 ⊝ z 12
    ⊛ z 28 ⊛ z 1683 ⊝ z 11 ⊛ z 28 ⊛ q8p ⊝ z 11 ⊛ z 268 ⊝ z 12 ⊛ z 308),
(3813, z 1593 ⊛ z 325 ⊹ q4p ⊛ z 3809 ⊹ q5p ⊛ z 3810 ⊹ q7p ⊛ z 3811 ⊹ z 43 ⊛ z 1570 ⊛ z 324 ⊹ z 43
    ⊛ q3p ⊛ z 3812),
(3814, z 76 ⊛ z 1593 ⊹ z 82 ⊛ z 1570 ⊹ z 83 ⊛ z 1683),
(3815, z 3814 ⊛ z 832 ⊹ if11 ⊛ z 322 ⊛ z 3805 ⊝ z 831 ⊛ z 3805 ⊝ if22 ⊛ z 3814 ⊛ z 323),
(3816, z 11 ⊛ z 3789 ⊹ z 12 ⊛ z 3781 ⊹ z 11 ⊛ z 74 ⊛ z 1683 ⊹ z 11 ⊛ z 302 ⊝ z 12 ⊛ z 80 ⊛ z 1683
    ⊝ z 11 ⊛ z 80 ⊛ q8p ⊝ z 12 ⊛ z 74 ⊛ q8p ⊝ z 12 ⊛ z 319),
(3817, z 11 ⊛ z 3792 ⊹ z 12 ⊛ z 3784 ⊹ z 11 ⊛ z 73 ⊛ z 1683 ⊹ z 11 ⊛ z 299 ⊝ z 12 ⊛ z 78 ⊛ z 1683
    ⊝ z 11 ⊛ z 78 ⊛ q8p ⊝ z 12 ⊛ z 73 ⊛ q8p ⊝ z 12 ⊛ z 317),
(3818, z 11 ⊛ z 3793 ⊹ z 12 ⊛ z 3787 ⊹ z 11 ⊛ z 75 ⊛ z 1683 ⊹ z 11 ⊛ z 307 ⊝ z 12 ⊛ z 79 ⊛ z 1683
    ⊝ z 11 ⊛ z 79 ⊛ q8p ⊝ z 12 ⊛ z 75 ⊛ q8p ⊝ z 12 ⊛ z 318),
(3819, z 11 ⊛ z 28 ⊛ z 1683 ⊹ z 11 ⊛ z 308 ⊝ z 12 ⊛ z 3785 ⊝ z 12 ⊛ z 32 ⊛ z 1683 ⊝ z 3 ⊛ z 6 ⊛ z
    11 ⊛ z 1593 ⊝ z 11 ⊛ z 32 ⊛ q8p ⊝ z 12 ⊛ z 28 ⊛ q8p ⊝ z 12 ⊛ z 268),
(3820, z 1593 ⊛ z 330 ⊹ q4p ⊛ z 3816 ⊹ q5p ⊛ z 3817 ⊹ q7p ⊛ z 3818 ⊹ z 43 ⊛ z 1570 ⊛ z 329 ⊹ z 43
    ⊛ q3p ⊛ z 3819),
(3821, z 831 ⊛ z 3806 ⊹ if22 ⊛ z 3814 ⊛ z 321 ⊝ z 3814 ⊛ z 830 ⊝ if11 ⊛ z 322 ⊛ z 3806),
(3822, z 14 ⊛ z 3756 ⊝ z 13 ⊛ z 3754),
(3823, z 3 ⊛ (z 13 ⊛ z 5 ⊹ z 14 ⊛ z 6) ⊛ z 1593),
(3824, z 3822 ⊛ q4p ⊹ z 14 ⊛ z 1593 ⊛ z 278 ⊹ z 43 ⊛ z 1570 ⊛ z 341 ⊝ z 43 ⊛ z 3823 ⊛ q3p),
(3825, z 18 ⊛ z 3754 ⊹ z 20 ⊛ z 3756 ⊝ z 15 ⊛ z 3762),
(3826, z 3 ⊛ (z 5 ⊛ z 18 ⊝ z 6 ⊛ z 20) ⊛ z 1593),
(3827, z 3825 ⊛ q4p ⊹ z 43 ⊛ z 3826 ⊛ q3p ⊹ n 2 ⊛ z 15 ⊛ z 3763 ⊛ q5p ⊹ z 1593 ⊛ z 349 ⊹ z 43 ⊛ z
    1570 ⊛ z 348),
(3828, z 112 ⊛ z 1570 ⊹ z 114 ⊛ z 1593),
(3829, z 110 ⊛ z 1570 ⊹ z 111 ⊛ z 1593),
(3830, z 115 ⊛ z 1570 ⊹ z 116 ⊛ z 1593),
(3831, ig31 ⊛ z 3829 ⊹ ig33 ⊛ z 3830),
(3832, z 3828 ⊛ z 852 ⊹ z 3831 ⊛ z 335 ⊝ z 3830 ⊛ z 853 ⊝ ig22 ⊛ z 3828 ⊛ z 336),
(3833, z 16 ⊛ z 3754 ⊹ z 17 ⊛ z 3762 ⊹ z 19 ⊛ z 3756),
(3834, z 3 ⊛ (z 5 ⊛ z 16 ⊝ z 6 ⊛ z 19) ⊛ z 1593),
(3835, z 3833 ⊛ q4p ⊹ z 43 ⊛ z 3834 ⊛ q3p ⊹ z 1593 ⊛ z 346 ⊹ z 43 ⊛ z 1570 ⊛ z 344 ⊝ n 2 ⊛ z 17 ⊛
    z 3763 ⊛ q5p),
(3836, ig11 ⊛ z 3829 ⊹ ig31 ⊛ z 3830),
(3837, z 3830 ⊛ z 851 ⊹ z 3836 ⊛ z 336 ⊝ z 3829 ⊛ z 852 ⊝ z 3831 ⊛ z 334),
(3838, z 3829 ⊛ z 853 ⊹ ig22 ⊛ z 3828 ⊛ z 334 ⊝ z 3828 ⊛ z 851 ⊝ z 3836 ⊛ z 335),
(3839, z 1570 ⊛ (z 354 ⊹ z 3 ⊛ z 43 ⊛ z 353)),
(3840, z 1570 ⊛ (z 43 ⊛ z 352 ⊹ z 118 ⊛ z 356)),
(3841, neg (z 5) ⊛ z 3839 ⊝ z 41 ⊛ z 3840),
(3842, z 3758 ⊛ (z 173 ⊛ q4p ⊹ z 174 ⊛ q5p ⊹ z 175 ⊛ q3p) ⊹ z 3841 ⊹ z 22 ⊛ z 3764 ⊹ (z 174 ⊛ z
    1593 ⊹ z 175 ⊛ z 1570) ⊛ z 266 ⊝ z 3759 ⊛ (z 170 ⊛ q4p ⊹ z 171 ⊛ q3p ⊝ z 172 ⊛ q5p) ⊝ (z 171 ⊛
    z 1570 ⊝ z 172 ⊛ z 1593) ⊛ z 267),
(3843, z 31 ⊛ z 3840 ⊝ z 6 ⊛ z 3839),
(3844, z 3843 ⊹ z 21 ⊛ z 3764 ⊹ (z 171 ⊛ z 1570 ⊝ z 172 ⊛ z 1593) ⊛ z 265 ⊝ z 3758 ⊛ (z 176 ⊛ q4p
    ⊹ z 177 ⊛ q5p ⊹ z 178 ⊛ q3p) ⊝ z 50 ⊛ z 1570 ⊛ (z 170 ⊛ q4p ⊹ z 171 ⊛ q3p ⊝ z 172 ⊛ q5p) ⊝ (z
    177 ⊛ z 1593 ⊹ z 178 ⊛ z 1570) ⊛ z 266),
(3845, z 13 ⊛ z 3842 ⊹ z 14 ⊛ z 3844),
(3846, z 3845 ⊹ l6 ⊛ z 3835 ⊝ z 3828 ⊛ (z 201 ⊛ q9p ⊹ z 202 ⊛ q3p ⊹ z 203 ⊛ q4p ⊹ z 204 ⊛ q5p) ⊝ z
    3830 ⊛ (z 197 ⊛ q3p ⊹ z 198 ⊛ q5p ⊹ z 199 ⊛ q4p ⊝ z 200 ⊛ q9p) ⊝ (z 197 ⊛ z 1570 ⊹ z 198 ⊛ z
    1593) ⊛ z 336 ⊝ (z 202 ⊛ z 1570 ⊹ z 204 ⊛ z 1593) ⊛ z 335),
(3847, neg (z 21) ⊛ z 3757 ⊝ z 22 ⊛ z 3755),
(3848, z 3759 ⊛ (z 176 ⊛ q4p ⊹ z 177 ⊛ q5p ⊹ z 178 ⊛ q3p) ⊹ z 50 ⊛ z 1570 ⊛ (z 173 ⊛ q4p ⊹ z 174 ⊛
    q5p ⊹ z 175 ⊛ q3p) ⊹ z 3847 ⊹ (z 177 ⊛ z 1593 ⊹ z 178 ⊛ z 1570) ⊛ z 267 ⊝ z 3 ⊛ z 3840 ⊝ (z
    174 ⊛ z 1593 ⊹ z 175 ⊛ z 1570) ⊛ z 265),
(3849, z 17 ⊛ z 3848 ⊹ z 19 ⊛ z 3844 ⊝ z 16 ⊛ z 3842),
(3850, l5 ⊛ z 3827 ⊝ l6 ⊛ z 3824),
(3851, z 3829 ⊛ (z 201 ⊛ q9p ⊹ z 202 ⊛ q3p ⊹ z 203 ⊛ q4p ⊹ z 204 ⊛ q5p) ⊹ z 3830 ⊛ (z 205 ⊛ q9p ⊹
    z 206 ⊛ q3p ⊹ z 207 ⊛ q4p ⊹ z 208 ⊛ q5p) ⊹ z 3849 ⊹ z 3850 ⊹ (z 202 ⊛ z 1570 ⊹ z 204 ⊛ z 1593)
    ⊛ z 334 ⊹ (z 206 ⊛ z 1570 ⊹ z 208 ⊛ z 1593) ⊛ z 336),
(3852, z 20 ⊛ z 3844 ⊝ z 15 ⊛ z 3848 ⊝ z 18 ⊛ z 3842),
(3853, z 3829 ⊛ (z 197 ⊛ q3p ⊹ z 198 ⊛ q5p ⊹ z 199 ⊛ q4p ⊝ z 200 ⊛ q9p) ⊹ z 3852 ⊹ (z 197 ⊛ z 1570
    ⊹ z 198 ⊛ z 1593) ⊛ z 334 ⊝ z 3828 ⊛ (z 205 ⊛ q9p ⊹ z 206 ⊛ q3p ⊹ z 207 ⊛ q4p ⊹ z 208 ⊛ q5p) ⊝
    l5 ⊛ z 3835 ⊝ (z 206 ⊛ z 1570 ⊹ z 208 ⊛ z 1593) ⊛ z 335),
(3854, z 3843 ⊹ (z 128 ⊛ z 1593 ⊹ z 130 ⊛ z 1570) ⊛ z 265 ⊝ z 3758 ⊛ (z 134 ⊛ q4p ⊹ z 135 ⊛ q5p ⊹
    z 136 ⊛ q3p) ⊝ z 50 ⊛ z 1570 ⊛ (z 128 ⊛ q5p ⊹ z 129 ⊛ q4p ⊹ z 130 ⊛ q3p) ⊝ l1 ⊛ z 3764 ⊝ (z
    135 ⊛ z 1593 ⊹ z 136 ⊛ z 1570) ⊛ z 266),
(3855, z 3841 ⊹ l2 ⊛ z 3764 ⊝ z 3758 ⊛ (z 131 ⊛ q4p ⊹ z 132 ⊛ q5p ⊹ z 133 ⊛ q3p) ⊝ z 3759 ⊛ (z 128
    ⊛ q5p ⊹ z 129 ⊛ q4p ⊹ z 130 ⊛ q3p) ⊝ (z 128 ⊛ z 1593 ⊹ z 130 ⊛ z 1570) ⊛ z 267 ⊝ (z 132 ⊛ z
    1593 ⊹ z 133 ⊛ z 1570) ⊛ z 266),
(3856, l1 ⊛ z 3757 ⊝ l2 ⊛ z 3755),
(3857, z 3759 ⊛ (z 134 ⊛ q4p ⊹ z 135 ⊛ q5p ⊹ z 136 ⊛ q3p) ⊹ z 3856 ⊹ (z 132 ⊛ z 1593 ⊹ z 133 ⊛ z
    1570) ⊛ z 265 ⊹ (z 135 ⊛ z 1593 ⊹ z 136 ⊛ z 1570) ⊛ z 267 ⊝ z 50 ⊛ z 1570 ⊛ (z 131 ⊛ q4p ⊹ z
    132 ⊛ q5p ⊹ z 133 ⊛ q3p) ⊝ z 3 ⊛ z 3840),
(3858, z 3843 ⊹ (z 143 ⊛ z 1593 ⊹ z 145 ⊛ z 1570) ⊛ z 265 ⊝ z 50 ⊛ z 1570 ⊛ (z 143 ⊛ q5p ⊹ z 144 ⊛
    q4p ⊹ z 145 ⊛ q3p) ⊝ d1 ⊛ z 3764),
(3859, z 3796 ⊛ (z 159 ⊛ q3p ⊹ z 160 ⊛ q5p ⊹ z 161 ⊛ q7p ⊹ z 162 ⊛ q4p) ⊹ (z 159 ⊛ z 1570 ⊹ z 160
    ⊛ z 1593) ⊛ z 292 ⊝ z 3795 ⊛ (z 164 ⊛ q5p ⊹ z 165 ⊛ q4p ⊹ z 166 ⊛ q3p) ⊝ z 158 ⊛ z 3802 ⊝ (z
    164 ⊛ z 1593 ⊹ z 166 ⊛ z 1570) ⊛ z 293),
(3860, z 3841 ⊝ z 3758 ⊛ (z 140 ⊛ q4p ⊹ z 141 ⊛ q5p ⊹ z 142 ⊛ q3p) ⊝ z 3759 ⊛ (z 143 ⊛ q5p ⊹ z 144
    ⊛ q4p ⊹ z 145 ⊛ q3p) ⊝ (z 141 ⊛ z 1593 ⊹ z 142 ⊛ z 1570) ⊛ z 266 ⊝ (z 143 ⊛ z 1593 ⊹ z 145 ⊛ z
    1570) ⊛ z 267),
(3861, d1 ⊛ z 3757 ⊹ (z 141 ⊛ z 1593 ⊹ z 142 ⊛ z 1570) ⊛ z 265 ⊝ z 50 ⊛ z 1570 ⊛ (z 140 ⊛ q4p ⊹ z
    141 ⊛ q5p ⊹ z 142 ⊛ q3p) ⊝ z 3 ⊛ z 3840),
(3862, z 158 ⊛ z 3794 ⊝ d2 ⊛ z 3788 ⊝ l4 ⊛ z 3788),
(3863, z 3796 ⊛ (z 167 ⊛ q5p ⊹ z 168 ⊛ q4p ⊹ z 169 ⊛ q3p) ⊹ z 3797 ⊛ (z 164 ⊛ q5p ⊹ z 165 ⊛ q4p ⊹
    z 166 ⊛ q3p) ⊹ z 3862 ⊹ (z 164 ⊛ z 1593 ⊹ z 166 ⊛ z 1570) ⊛ z 294 ⊹ (z 167 ⊛ z 1593 ⊹ z 169 ⊛
    z 1570) ⊛ z 292),
(3864, z 163 ⊛ z 3802 ⊝ z 3795 ⊛ (z 167 ⊛ q5p ⊹ z 168 ⊛ q4p ⊹ z 169 ⊛ q3p) ⊝ z 3797 ⊛ (z 159 ⊛ q3p
    ⊹ z 160 ⊛ q5p ⊹ z 161 ⊛ q7p ⊹ z 162 ⊛ q4p) ⊝ (z 159 ⊛ z 1570 ⊹ z 160 ⊛ z 1593) ⊛ z 294 ⊝ (z
    167 ⊛ z 1593 ⊹ z 169 ⊛ z 1570) ⊛ z 293),
(3865, z 3796 ⊛ (z 148 ⊛ q3p ⊹ z 149 ⊛ q5p ⊹ z 150 ⊛ q7p ⊹ z 151 ⊛ q4p) ⊹ (z 148 ⊛ z 1570 ⊹ z 149
    ⊛ z 1593) ⊛ z 292 ⊝ z 3795 ⊛ (z 152 ⊛ q5p ⊹ z 153 ⊛ q4p ⊹ z 154 ⊛ q3p) ⊝ d3 ⊛ z 3802 ⊝ (z 152
    ⊛ z 1593 ⊹ z 154 ⊛ z 1570) ⊛ z 293),
(3866, d3 ⊛ z 3794 ⊝ d2 ⊛ z 3788),
(3867, z 3796 ⊛ (z 155 ⊛ q5p ⊹ z 156 ⊛ q4p ⊹ z 157 ⊛ q3p) ⊹ z 3797 ⊛ (z 152 ⊛ q5p ⊹ z 153 ⊛ q4p ⊹
    z 154 ⊛ q3p) ⊹ z 3866 ⊹ (z 152 ⊛ z 1593 ⊹ z 154 ⊛ z 1570) ⊛ z 294 ⊹ (z 155 ⊛ z 1593 ⊹ z 157 ⊛
    z 1570) ⊛ z 292)]

end BP.EL
