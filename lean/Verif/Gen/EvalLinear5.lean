import Verif.Model.EvalLinear

/-!
# The body of `eval_linear`, part 5

Generated by tools/gen_eval_linear.py from _mooreriderlean2012.py:5747-7030.  Do not edit.
-/

namespace BP.EL

open E

/-- _mooreriderlean2012.py:5747-5817 -/
def part48 : List (ℕ × E) := [
(2826, d1 ⊛ z 4 ⊛ z 5 ⊛ z 1582 ⊹ z 4 ⊛ z 6 ⊛ z 448 ⊛ z 1582 ⊹ d1 ⊛ z 3 ⊛ z 5 ⊛ q4p ⊹ z 3 ⊛ z 6 ⊛ z
    448 ⊛ q4p ⊹ z 4 ⊛ z 5 ⊛ z 448 ⊛ q5p ⊹ z 4 ⊛ z 6 ⊛ z 455 ⊛ q4p ⊹ qt 2 ⊛ rf ⊛ z 4 ⊛ z 6 ⊛ z 1207
    ⊛ q5p ⊹ z 3 ⊛ z 5 ⊛ z 2815 ⊹ z 3 ⊛ z 5 ⊛ z 9 ⊛ z 639 ⊹ qt 2 ⊛ rf ⊛ z 4 ⊛ z 6 ⊛ z 582 ⊹ qt 2 ⊛
    rf ⊛ z 4 ⊛ z 5 ⊛ z 9 ⊛ z 584 ⊹ (z 3 ⊛ z 24 ⊝ z 4 ⊛ z 10) ⊛ z 2820 ⊹ qt 1 ⊛ rf ⊛ (z 3 ⊛ z 10 ⊹
    z 4 ⊛ z 24) ⊛ z 2778 ⊹ z 449 ⊛ (z 3 ⊛ z 5 ⊛ z 9 ⊛ q4p ⊹ z 4 ⊛ z 2643) ⊹ z 451 ⊛ (z 4 ⊛ z 5 ⊛ z
    10 ⊛ q4p ⊝ z 3 ⊛ z 2635) ⊹ z 1249 ⊛ (z 4 ⊛ z 10 ⊛ q7p ⊹ z 4 ⊛ z 26 ⊛ q4p ⊝ z 3 ⊛ z 9 ⊛ q4p ⊝ z
    3 ⊛ z 295) ⊝ z 3 ⊛ z 6 ⊛ z 455 ⊛ z 1582 ⊝ d1 ⊛ z 4 ⊛ z 6 ⊛ q5p ⊝ z 3 ⊛ z 5 ⊛ z 455 ⊛ q5p ⊝ z 3
    ⊛ z 6 ⊛ z 1234 ⊛ q5p ⊝ z 4 ⊛ z 5 ⊛ z 1234 ⊛ q4p ⊝ qt 2 ⊛ rf ⊛ z 3 ⊛ z 5 ⊛ z 1207 ⊛ q4p ⊝ z 3 ⊛
    z 6 ⊛ z 634 ⊝ z 3 ⊛ z 5 ⊛ z 10 ⊛ z 644 ⊝ qt 1 ⊛ rf ⊛ z 4 ⊛ z 5 ⊛ z 2783 ⊝ (z 3 ⊛ z 26 ⊹ z 4 ⊛
    z 9) ⊛ z 2825 ⊝ z 453 ⊛ (z 4 ⊛ z 5 ⊛ z 9 ⊛ q4p ⊝ z 3 ⊛ z 2643) ⊝ z 1229 ⊛ (z 3 ⊛ z 10 ⊛ q4p ⊹
    z 4 ⊛ z 9 ⊛ q7p ⊹ z 4 ⊛ z 24 ⊛ q4p ⊝ z 3 ⊛ z 303) ⊝ qt 2 ⊛ rf ⊛ z 1212 ⊛ (z 4 ⊛ z 10 ⊛ q4p ⊝ z
    3 ⊛ z 9 ⊛ q7p ⊝ z 3 ⊛ z 24 ⊛ q4p ⊝ z 4 ⊛ z 303)),
(2827, z 4 ⊛ z 5 ⊛ z 6 ⊛ z 10 ⊛ q5p ⊹ z 5 ⊛ z 2636 ⊝ z 6 ⊛ z 29 ⊛ z 1582 ⊝ z 5 ⊛ z 29 ⊛ q5p ⊝ z 6
    ⊛ z 300),
(2828, z 33 ⊛ z 2827 ⊹ z 410 ⊛ z 2775 ⊹ z 1205 ⊛ z 646 ⊹ z 1219 ⊛ z 580),
(2829, (qt 6 ⊛ z 415 ⊛ z 1206 ⊛ z 581 ⊹ z 35 ⊛ (n 2 ⊛ z 35 ⊛ z 2828 ⊝ z 415 ⊛ z 2777 ⊝ z 1206 ⊛ z
    647 ⊝ z 1220 ⊛ z 581)) ⊘ hpow (z 35) 5),
(2830, (n 3 ⊛ z 34 ⊛ z 417 ⊛ z 1206 ⊛ z 581 ⊘ z 35 ⊹ z 36 ⊛ (z 34 ⊛ z 36 ⊛ z 2829 ⊹ z 36 ⊛ z 1204
    ⊛ z 648 ⊹ z 36 ⊛ z 1221 ⊛ z 579 ⊹ n 2 ⊛ z 36 ⊛ z 417 ⊛ z 2776 ⊹ (z 34 ⊛ z 417 ⊛ z 1206 ⊛ z 581
    ⊝ n 2 ⊛ z 34 ⊛ z 35 ⊛ z 417 ⊛ z 2777 ⊝ n 2 ⊛ z 35 ⊛ z 417 ⊛ z 1204 ⊛ z 581 ⊝ n 2 ⊛ z 35 ⊛ z
    417 ⊛ z 1206 ⊛ z 579 ⊝ z 34 ⊛ z 35 ⊛ z 1206 ⊛ z 648 ⊝ z 34 ⊛ z 35 ⊛ z 1221 ⊛ z 581) ⊘ hpow (z
    35) 3)) ⊘ pow (z 36) 4),
(2831, (n 6 ⊛ z 33 ⊛ z 417 ⊛ z 1206 ⊛ z 581 ⊘ z 35 ⊝ z 36 ⊛ (z 36 ⊛ (n 4 ⊛ z 36 ⊛ z 2827 ⊝ n 4 ⊛ z
    417 ⊛ z 2775 ⊝ n 2 ⊛ z 33 ⊛ z 2829 ⊝ n 2 ⊛ z 1205 ⊛ z 648 ⊝ n 2 ⊛ z 1221 ⊛ z 580 ⊝ (n 2 ⊛ z 35
    ⊛ z 410 ⊛ z 2777 ⊹ n 2 ⊛ z 35 ⊛ z 1219 ⊛ z 581 ⊝ z 410 ⊛ z 1206 ⊛ z 581) ⊘ hpow (z 35) 3) ⊹ n
    2 ⊛ (z 33 ⊛ z 35 ⊛ z 1221 ⊛ z 581 ⊹ n 2 ⊛ z 33 ⊛ z 35 ⊛ z 417 ⊛ z 2777 ⊹ n 2 ⊛ z 35 ⊛ z 417 ⊛
    z 1205 ⊛ z 581 ⊝ z 33 ⊛ z 417 ⊛ z 1206 ⊛ z 581 ⊝ z 35 ⊛ z 1206 ⊛ (z 36 ⊛ z 646 ⊝ n 2 ⊛ z 417 ⊛
    z 580 ⊝ z 33 ⊛ z 648 ⊝ z 410 ⊛ z 581 ⊘ hpow (z 35) 1)) ⊘ hpow (z 35) 3)) ⊘ pow (z 36) 4),
(2832, z 429 ⊛ z 2604 ⊹ z 441 ⊛ z 2648 ⊹ qt 1 ⊛ rf ⊛ z 28 ⊛ z 2831 ⊹ qt 2 ⊛ rf ⊛ z 32 ⊛ z 2830 ⊹
    qt 2 ⊛ rf ⊛ z 1223 ⊛ z 268 ⊹ qt 2 ⊛ rf ⊛ z 3 ⊛ z 5 ⊛ z 9 ⊛ z 649 ⊝ qt 2 ⊛ rf ⊛ z 1222 ⊛ z 308
    ⊝ qt 2 ⊛ rf ⊛ z 3 ⊛ z 6 ⊛ z 650),
(2833, z 29 ⊛ z 2776 ⊹ z 34 ⊛ z 2636 ⊹ z 1204 ⊛ z 300 ⊝ z 4 ⊛ z 5 ⊛ z 10 ⊛ z 579),
(2834, (qt 6 ⊛ z 414 ⊛ z 1206 ⊛ z 581 ⊹ z 35 ⊛ (n 2 ⊛ z 35 ⊛ z 2833 ⊝ z 414 ⊛ z 2777 ⊝ z 1206 ⊛ z
    652 ⊝ z 1235 ⊛ z 581)) ⊘ hpow (z 35) 5),
(2835, (n 3 ⊛ z 33 ⊛ z 419 ⊛ z 1206 ⊛ z 581 ⊘ z 35 ⊹ z 36 ⊛ (z 33 ⊛ z 36 ⊛ z 2834 ⊹ z 36 ⊛ z 1205
    ⊛ z 653 ⊹ z 36 ⊛ z 1236 ⊛ z 580 ⊹ n 2 ⊛ z 36 ⊛ z 419 ⊛ z 2775 ⊹ (z 33 ⊛ z 419 ⊛ z 1206 ⊛ z 581
    ⊝ n 2 ⊛ z 33 ⊛ z 35 ⊛ z 419 ⊛ z 2777 ⊝ n 2 ⊛ z 35 ⊛ z 419 ⊛ z 1205 ⊛ z 581 ⊝ n 2 ⊛ z 35 ⊛ z
    419 ⊛ z 1206 ⊛ z 580 ⊝ z 33 ⊛ z 35 ⊛ z 1206 ⊛ z 653 ⊝ z 33 ⊛ z 35 ⊛ z 1236 ⊛ z 581) ⊘ hpow (z
    35) 3)) ⊘ pow (z 36) 4),
(2836, (n 2 ⊛ z 1206 ⊛ (z 36 ⊛ (z 34 ⊛ z 653 ⊹ n 2 ⊛ z 419 ⊛ z 579) ⊹ (z 29 ⊛ z 36 ⊝ n 3 ⊛ z 34 ⊛
    z 419) ⊛ z 581 ⊘ hpow (z 35) 1) ⊘ hpow (z 35) 1 ⊹ z 36 ⊛ (n 2 ⊛ z 36 ⊛ (n 2 ⊛ z 36 ⊛ z 2636 ⊝
    n 2 ⊛ z 419 ⊛ z 2776 ⊝ z 34 ⊛ z 2834 ⊝ z 1204 ⊛ z 653 ⊝ z 1236 ⊛ z 579 ⊝ z 1206 ⊛ z 300 ⊘ hpow
    (z 35) 1) ⊝ (n 2 ⊛ z 35 ⊛ (z 29 ⊛ z 36 ⊝ n 2 ⊛ z 34 ⊛ z 419) ⊛ z 2777 ⊝ z 1206 ⊛ (z 29 ⊛ z 36
    ⊝ n 2 ⊛ z 34 ⊛ z 419) ⊛ z 581 ⊝ n 2 ⊛ z 35 ⊛ (z 34 ⊛ z 1236 ⊹ n 2 ⊛ z 419 ⊛ z 1204 ⊹ z 4 ⊛ z 5
    ⊛ z 10 ⊛ z 36) ⊛ z 581) ⊘ hpow (z 35) 3)) ⊘ pow (z 36) 4),
(2837, z 433 ⊛ z 2604 ⊹ qt 1 ⊛ rf ⊛ z 32 ⊛ z 2836 ⊹ qt 2 ⊛ rf ⊛ z 1237 ⊛ z 268 ⊹ qt 2 ⊛ rf ⊛ z 3 ⊛
    z 6 ⊛ z 654 ⊹ qt 2 ⊛ rf ⊛ z 3 ⊛ z 5 ⊛ z 9 ⊛ z 655 ⊝ z 445 ⊛ z 2648 ⊝ qt 2 ⊛ rf ⊛ z 28 ⊛ z 2835
    ⊝ qt 2 ⊛ rf ⊛ z 1238 ⊛ z 308),
(2838, n 2 ⊛ z 27 ⊛ z 2776 ⊹ n 2 ⊛ z 31 ⊛ z 2775 ⊹ n 2 ⊛ z 33 ⊛ z 2605 ⊹ n 2 ⊛ z 34 ⊛ z 2651 ⊹ n 2
    ⊛ z 1204 ⊛ z 310 ⊹ n 2 ⊛ z 1205 ⊛ z 269 ⊹ n 2 ⊛ z 4 ⊛ z 5 ⊛ z 9 ⊛ z 579 ⊝ n 2 ⊛ z 4 ⊛ z 6 ⊛ z
    580),
(2839, (qt 6 ⊛ z 413 ⊛ z 1206 ⊛ z 581 ⊹ z 35 ⊛ (n 2 ⊛ z 35 ⊛ z 2838 ⊝ z 413 ⊛ z 2777 ⊝ z 1206 ⊛ z
    657 ⊝ z 1240 ⊛ z 581)) ⊘ hpow (z 35) 5),
(2840, (z 1206 ⊛ (z 36 ⊛ (z 33 ⊛ z 658 ⊹ n 2 ⊛ z 422 ⊛ z 580) ⊹ n 2 ⊛ (z 31 ⊛ z 36 ⊝ qt 6 ⊛ z 33 ⊛
    z 422) ⊛ z 581 ⊘ hpow (z 35) 1) ⊘ hpow (z 35) 1 ⊹ z 36 ⊛ (z 36 ⊛ (n 4 ⊛ z 36 ⊛ z 2605 ⊝ n 2 ⊛
    z 422 ⊛ z 2775 ⊝ z 33 ⊛ z 2839 ⊝ z 1205 ⊛ z 658 ⊝ z 1241 ⊛ z 580 ⊝ n 2 ⊛ z 1206 ⊛ z 269 ⊘ hpow
    (z 35) 1) ⊝ (n 2 ⊛ z 35 ⊛ (z 31 ⊛ z 36 ⊝ z 33 ⊛ z 422) ⊛ z 2777 ⊝ z 1206 ⊛ (z 31 ⊛ z 36 ⊝ z 33
    ⊛ z 422) ⊛ z 581 ⊝ z 35 ⊛ (z 33 ⊛ z 1241 ⊹ n 2 ⊛ z 422 ⊛ z 1205 ⊹ n 2 ⊛ z 4 ⊛ z 6 ⊛ z 36) ⊛ z
    581) ⊘ hpow (z 35) 3)) ⊘ pow (z 36) 4),
(2841, (z 1206 ⊛ (z 36 ⊛ (z 34 ⊛ z 658 ⊹ n 2 ⊛ z 422 ⊛ z 579) ⊹ n 2 ⊛ (z 27 ⊛ z 36 ⊝ qt 6 ⊛ z 34 ⊛
    z 422) ⊛ z 581 ⊘ hpow (z 35) 1) ⊘ hpow (z 35) 1 ⊹ z 36 ⊛ (z 36 ⊛ (n 4 ⊛ z 36 ⊛ z 2651 ⊝ n 2 ⊛
    z 422 ⊛ z 2776 ⊝ z 34 ⊛ z 2839 ⊝ z 1204 ⊛ z 658 ⊝ z 1241 ⊛ z 579 ⊝ n 2 ⊛ z 1206 ⊛ z 310 ⊘ hpow
    (z 35) 1) ⊝ (n 2 ⊛ z 35 ⊛ (z 27 ⊛ z 36 ⊝ z 34 ⊛ z 422) ⊛ z 2777 ⊝ z 1206 ⊛ (z 27 ⊛ z 36 ⊝ z 34
    ⊛ z 422) ⊛ z 581 ⊝ z 35 ⊛ (z 34 ⊛ z 1241 ⊹ n 2 ⊛ z 422 ⊛ z 1204 ⊝ n 2 ⊛ z 4 ⊛ z 5 ⊛ z 9 ⊛ z
    36) ⊛ z 581) ⊘ hpow (z 35) 3)) ⊘ pow (z 36) 4),
(2842, qt 2 ⊛ z 431 ⊛ z 2604 ⊹ qt 2 ⊛ z 442 ⊛ z 2648 ⊹ qt 1 ⊛ rf ⊛ z 28 ⊛ z 2840 ⊹ qt 1 ⊛ rf ⊛ z
    32 ⊛ z 2841 ⊹ qt 1 ⊛ rf ⊛ z 1242 ⊛ z 308 ⊹ qt 1 ⊛ rf ⊛ z 3 ⊛ z 6 ⊛ z 660 ⊹ qt 1 ⊛ rf ⊛ z 3 ⊛ z
    5 ⊛ z 9 ⊛ z 659 ⊝ qt 1 ⊛ rf ⊛ z 1243 ⊛ z 268)]

/-- _mooreriderlean2012.py:5818-5891 -/
def part49 : List (ℕ × E) := [
(2843, d1 ⊛ z 3 ⊛ z 6 ⊛ z 1582 ⊹ z 3 ⊛ z 6 ⊛ z 9 ⊛ z 449 ⊛ z 1582 ⊹ z 4 ⊛ z 6 ⊛ z 10 ⊛ z 451 ⊛ z
    1582 ⊹ d1 ⊛ z 3 ⊛ z 5 ⊛ q5p ⊹ z 3 ⊛ z 6 ⊛ z 448 ⊛ q5p ⊹ z 4 ⊛ z 5 ⊛ z 448 ⊛ q4p ⊹ z 4 ⊛ z 6 ⊛
    z 455 ⊛ q5p ⊹ z 5 ⊛ z 10 ⊛ z 454 ⊛ q7p ⊹ z 6 ⊛ z 9 ⊛ z 454 ⊛ q5p ⊹ z 6 ⊛ z 10 ⊛ z 452 ⊛ q5p ⊹
    z 6 ⊛ z 10 ⊛ z 1239 ⊛ q7p ⊹ z 3 ⊛ z 5 ⊛ z 9 ⊛ z 449 ⊛ q5p ⊹ z 3 ⊛ z 5 ⊛ z 9 ⊛ z 1229 ⊛ q4p ⊹ z
    3 ⊛ z 6 ⊛ z 10 ⊛ z 451 ⊛ q4p ⊹ z 4 ⊛ z 5 ⊛ z 10 ⊛ z 451 ⊛ q5p ⊹ z 4 ⊛ z 6 ⊛ z 9 ⊛ z 451 ⊛ q7p
    ⊹ z 4 ⊛ z 6 ⊛ z 10 ⊛ z 453 ⊛ q7p ⊹ z 4 ⊛ z 6 ⊛ z 10 ⊛ z 1249 ⊛ q5p ⊹ qt 2 ⊛ rf ⊛ z 4 ⊛ z 6 ⊛ z
    1207 ⊛ q4p ⊹ qt 2 ⊛ rf ⊛ z 3 ⊛ z 5 ⊛ z 10 ⊛ z 1212 ⊛ q7p ⊹ qt 2 ⊛ rf ⊛ z 3 ⊛ z 6 ⊛ z 9 ⊛ z
    1212 ⊛ q5p ⊹ qt 2 ⊛ rf ⊛ z 4 ⊛ z 5 ⊛ z 9 ⊛ z 1212 ⊛ q4p ⊹ z 2832 ⊹ z 4 ⊛ z 5 ⊛ z 9 ⊛ z 2820 ⊹
    z 4 ⊛ z 6 ⊛ z 10 ⊛ z 644 ⊹ qt 2 ⊛ rf ⊛ z 3 ⊛ z 6 ⊛ z 9 ⊛ z 584 ⊝ z 3 ⊛ z 5 ⊛ z 448 ⊛ z 1582 ⊝
    z 4 ⊛ z 5 ⊛ z 455 ⊛ z 1582 ⊝ z 5 ⊛ z 9 ⊛ z 454 ⊛ z 1582 ⊝ z 5 ⊛ z 10 ⊛ z 452 ⊛ z 1582 ⊝ z 4 ⊛
    z 6 ⊛ z 9 ⊛ z 453 ⊛ z 1582 ⊝ d1 ⊛ z 4 ⊛ z 6 ⊛ q4p ⊝ z 3 ⊛ z 5 ⊛ z 455 ⊛ q4p ⊝ z 3 ⊛ z 6 ⊛ z
    1234 ⊛ q4p ⊝ z 4 ⊛ z 5 ⊛ z 1234 ⊛ q5p ⊝ z 5 ⊛ z 9 ⊛ z 452 ⊛ q7p ⊝ z 5 ⊛ z 9 ⊛ z 1239 ⊛ q5p ⊝ z
    5 ⊛ z 10 ⊛ z 1244 ⊛ q5p ⊝ z 6 ⊛ z 9 ⊛ z 1244 ⊛ q7p ⊝ z 3 ⊛ z 5 ⊛ z 10 ⊛ z 1249 ⊛ q4p ⊝ z 3 ⊛ z
    6 ⊛ z 9 ⊛ z 453 ⊛ q4p ⊝ z 3 ⊛ z 6 ⊛ z 10 ⊛ z 449 ⊛ q7p ⊝ z 4 ⊛ z 5 ⊛ z 9 ⊛ z 453 ⊛ q5p ⊝ z 4 ⊛
    z 5 ⊛ z 9 ⊛ z 1249 ⊛ q7p ⊝ z 4 ⊛ z 5 ⊛ z 10 ⊛ z 1229 ⊛ q7p ⊝ z 4 ⊛ z 6 ⊛ z 9 ⊛ z 449 ⊛ q4p ⊝ z
    4 ⊛ z 6 ⊛ z 9 ⊛ z 1229 ⊛ q5p ⊝ qt 2 ⊛ rf ⊛ z 3 ⊛ z 5 ⊛ z 1207 ⊛ q5p ⊝ z 4 ⊛ z 5 ⊛ z 634 ⊝ z 4
    ⊛ z 6 ⊛ z 2815 ⊝ z 5 ⊛ z 9 ⊛ z 656 ⊝ z 5 ⊛ z 10 ⊛ z 661 ⊝ z 6 ⊛ z 9 ⊛ z 2837 ⊝ z 6 ⊛ z 10 ⊛ z
    2842 ⊝ z 4 ⊛ z 5 ⊛ z 10 ⊛ z 2825 ⊝ z 4 ⊛ z 6 ⊛ z 9 ⊛ z 639 ⊝ qt 2 ⊛ rf ⊛ z 3 ⊛ z 5 ⊛ z 582 ⊝
    qt 1 ⊛ rf ⊛ z 3 ⊛ z 6 ⊛ z 2783 ⊝ qt 1 ⊛ rf ⊛ z 3 ⊛ z 5 ⊛ z 9 ⊛ z 2778),
(2844, z 6 ⊛ z 10 ⊛ z 454 ⊛ z 1582 ⊹ z 5 ⊛ z 10 ⊛ z 454 ⊛ q5p ⊹ z 6 ⊛ z 9 ⊛ z 454 ⊛ q7p ⊹ z 6 ⊛ z
    10 ⊛ z 452 ⊛ q7p ⊹ z 6 ⊛ z 10 ⊛ z 1239 ⊛ q5p ⊹ z 449 ⊛ (z 3 ⊛ z 5 ⊛ z 10 ⊛ z 1582 ⊹ z 3 ⊛ z 5
    ⊛ z 9 ⊛ q7p ⊝ z 3 ⊛ z 6 ⊛ z 10 ⊛ q5p ⊝ z 4 ⊛ z 5 ⊛ z 10 ⊛ q4p) ⊹ qt 2 ⊛ rf ⊛ z 1212 ⊛ (z 3 ⊛ z
    9 ⊛ q4p ⊹ z 3 ⊛ z 5 ⊛ z 10 ⊛ q5p ⊹ z 3 ⊛ z 6 ⊛ z 9 ⊛ q7p ⊝ z 4 ⊛ z 10 ⊛ q7p ⊝ z 4 ⊛ z 6 ⊛ z 10
    ⊛ q4p) ⊹ z 5 ⊛ z 9 ⊛ z 2842 ⊹ z 6 ⊛ z 10 ⊛ z 656 ⊹ qt 2 ⊛ rf ⊛ z 3 ⊛ z 5 ⊛ z 10 ⊛ z 584 ⊹ (z 3
    ⊛ z 9 ⊝ z 4 ⊛ z 6 ⊛ z 10) ⊛ z 2820 ⊹ qt 1 ⊛ rf ⊛ (z 4 ⊛ z 9 ⊹ z 3 ⊛ z 6 ⊛ z 10) ⊛ z 2778 ⊝ z 6
    ⊛ z 9 ⊛ z 452 ⊛ z 1582 ⊝ z 5 ⊛ z 9 ⊛ z 452 ⊛ q5p ⊝ z 5 ⊛ z 9 ⊛ z 1239 ⊛ q7p ⊝ z 5 ⊛ z 10 ⊛ z
    1244 ⊛ q7p ⊝ z 6 ⊛ z 9 ⊛ z 1244 ⊛ q5p ⊝ z 453 ⊛ (z 4 ⊛ z 5 ⊛ z 10 ⊛ z 1582 ⊹ z 3 ⊛ z 5 ⊛ z 10
    ⊛ q4p ⊹ z 4 ⊛ z 5 ⊛ z 9 ⊛ q7p ⊝ z 4 ⊛ z 6 ⊛ z 10 ⊛ q5p) ⊝ z 451 ⊛ (z 4 ⊛ z 5 ⊛ z 9 ⊛ z 1582 ⊹
    z 3 ⊛ z 5 ⊛ z 9 ⊛ q4p ⊝ z 4 ⊛ z 5 ⊛ z 10 ⊛ q7p ⊝ z 4 ⊛ z 6 ⊛ z 9 ⊛ q5p) ⊝ z 1229 ⊛ (z 3 ⊛ z 10
    ⊛ q7p ⊹ z 4 ⊛ z 9 ⊛ q4p ⊹ z 3 ⊛ z 6 ⊛ z 10 ⊛ q4p ⊹ z 4 ⊛ z 5 ⊛ z 10 ⊛ q5p ⊹ z 4 ⊛ z 6 ⊛ z 9 ⊛
    q7p) ⊝ z 1249 ⊛ (z 3 ⊛ z 9 ⊛ q7p ⊹ z 3 ⊛ z 6 ⊛ z 9 ⊛ q4p ⊹ z 4 ⊛ z 5 ⊛ z 9 ⊛ q5p ⊝ z 4 ⊛ z 10
    ⊛ q4p ⊝ z 4 ⊛ z 6 ⊛ z 10 ⊛ q7p) ⊝ z 5 ⊛ z 10 ⊛ z 2837 ⊝ z 6 ⊛ z 9 ⊛ z 661 ⊝ z 4 ⊛ z 5 ⊛ z 9 ⊛
    z 644 ⊝ z 4 ⊛ z 5 ⊛ z 10 ⊛ z 639 ⊝ (z 3 ⊛ z 10 ⊹ z 4 ⊛ z 6 ⊛ z 9) ⊛ z 2825),
(2845, u4 ⊛ z 2826 ⊹ u5 ⊛ z 2843 ⊹ u7 ⊛ z 2844 ⊹ z 1582 ⊛ z 662),
(2846, z 27 ⊛ z 2766 ⊹ z 29 ⊛ z 2767 ⊹ z 233 ⊛ z 2651 ⊹ z 238 ⊛ z 2636 ⊹ z 4 ⊛ z 6 ⊛ z 569 ⊹ z 9 ⊛
    z 1308 ⊛ z 310 ⊹ z 4 ⊛ z 5 ⊛ z 9 ⊛ z 571 ⊝ z 31 ⊛ z 2764 ⊝ z 122 ⊛ z 2605 ⊝ z 1307 ⊛ z 269 ⊝ z
    10 ⊛ z 1308 ⊛ z 300 ⊝ z 4 ⊛ z 5 ⊛ z 10 ⊛ z 572),
(2847, z 27 ⊛ z 2771 ⊹ z 29 ⊛ z 2772 ⊹ z 234 ⊛ z 2651 ⊹ z 239 ⊛ z 2636 ⊹ z 4 ⊛ z 6 ⊛ z 574 ⊹ z 9 ⊛
    z 1257 ⊛ z 310 ⊹ z 4 ⊛ z 5 ⊛ z 9 ⊛ z 576 ⊝ z 31 ⊛ z 2769 ⊝ z 125 ⊛ z 2605 ⊝ z 1256 ⊛ z 269 ⊝ z
    10 ⊛ z 1257 ⊛ z 300 ⊝ z 4 ⊛ z 5 ⊛ z 10 ⊛ z 577),
(2848, z 257 ⊛ z 2651 ⊹ z 259 ⊛ z 2636 ⊹ z 4 ⊛ z 6 ⊛ z 607 ⊹ (z 1203 ⊹ z 1208) ⊛ z 310 ⊹ (z 1211 ⊹
    z 1215) ⊛ z 300 ⊹ z 27 ⊛ (z 2782 ⊹ z 2784) ⊹ z 29 ⊛ (z 2786 ⊹ z 2787) ⊹ z 4 ⊛ z 5 ⊛ z 9 ⊛ (z
    611 ⊹ z 612) ⊝ z 31 ⊛ z 2780 ⊝ z 262 ⊛ z 2605 ⊝ (z 1216 ⊝ z 1217) ⊛ z 269 ⊝ z 4 ⊛ z 5 ⊛ z 10 ⊛
    (z 614 ⊹ z 615)),
(2849, z 256 ⊛ z 2651 ⊹ z 261 ⊛ z 2636 ⊹ z 1276 ⊛ z 300 ⊹ (z 1268 ⊹ z 1269) ⊛ z 310 ⊹ z 27 ⊛ (z
    2789 ⊹ z 2790) ⊹ z 29 ⊛ (z 2794 ⊹ z 2795) ⊹ z 4 ⊛ z 5 ⊛ z 9 ⊛ (z 597 ⊹ z 598) ⊹ z 4 ⊛ z 6 ⊛ (z
    595 ⊝ z 596) ⊝ z 263 ⊛ z 2605 ⊝ (z 1265 ⊝ z 1266) ⊛ z 269 ⊝ z 31 ⊛ (z 2791 ⊝ z 2792) ⊝ z 4 ⊛ z
    5 ⊛ z 10 ⊛ (z 600 ⊹ z 601)),
(2850, z 255 ⊛ z 2651 ⊹ z 260 ⊛ z 2636 ⊹ (z 1292 ⊹ z 1295) ⊛ z 300 ⊹ z 27 ⊛ (z 2797 ⊹ z 2798) ⊹ z
    29 ⊛ (z 2802 ⊹ z 2803) ⊹ (z 1289 ⊹ d2 ⊛ z 1286) ⊛ z 310 ⊹ z 4 ⊛ z 5 ⊛ z 9 ⊛ (z 589 ⊹ z 590) ⊹
    z 4 ⊛ z 6 ⊛ (z 587 ⊝ z 588) ⊝ z 264 ⊛ z 2605 ⊝ (z 1287 ⊝ z 1288) ⊛ z 269 ⊝ z 31 ⊛ (z 2799 ⊝ z
    2800) ⊝ z 4 ⊛ z 5 ⊛ z 10 ⊛ (z 592 ⊹ z 593)),
(2851, z 258 ⊛ z 2636 ⊹ (z 1318 ⊹ z 1321) ⊛ z 300 ⊹ z 29 ⊛ (z 2806 ⊹ z 2807) ⊝ z 4 ⊛ z 5 ⊛ z 10 ⊛
    (z 617 ⊹ z 618)),
(2852, z 250 ⊛ z 2605 ⊹ z 254 ⊛ z 2651 ⊹ qt 1 ⊛ rf ⊛ z 27 ⊛ z 83 ⊛ z 2783 ⊹ qt 1 ⊛ rf ⊛ z 31 ⊛ z
    83 ⊛ z 2778 ⊹ qt 2 ⊛ rf ⊛ z 83 ⊛ z 1207 ⊛ z 310 ⊹ qt 2 ⊛ rf ⊛ z 83 ⊛ z 1212 ⊛ z 269 ⊹ qt 2 ⊛ z
    4 ⊛ z 5 ⊛ z 9 ⊛ z 583 ⊝ qt 2 ⊛ z 4 ⊛ z 6 ⊛ z 585),
(2853, u1 ⊛ z 2846 ⊹ u2 ⊛ z 2847 ⊹ u3 ⊛ z 2848 ⊹ u4 ⊛ z 2849 ⊹ u5 ⊛ z 2850 ⊹ u7 ⊛ z 2851 ⊹ u8 ⊛ z
    2852 ⊹ z 1325 ⊛ z 621 ⊹ z 1502 ⊛ z 622 ⊹ z 1552 ⊛ z 626 ⊹ z 1582 ⊛ z 624 ⊹ z 1643 ⊛ z 623),
(2854, (z 1312 ⊛ (z 525 ⊛ z 568 ⊹ z 478 ⊛ z 496 ⊛ z 620 ⊝ z 511 ⊛ z 553 ⊝ z 535 ⊛ z 664 ⊝ z 478 ⊛
    z 528 ⊛ z 628) ⊝ z 494 ⊛ (z 525 ⊛ z 2763 ⊹ z 1545 ⊛ z 568 ⊹ z 478 ⊛ z 496 ⊛ z 2809 ⊹ z 478 ⊛ z
    1254 ⊛ z 620 ⊝ z 511 ⊛ z 2810 ⊝ z 535 ⊛ z 2845 ⊝ z 1547 ⊛ z 553 ⊝ z 1548 ⊛ z 664 ⊝ z 478 ⊛ z
    528 ⊛ z 2853 ⊝ z 478 ⊛ z 1306 ⊛ z 628)) ⊘ pow (z 494) 2)]

/-- _mooreriderlean2012.py:5892-6001 -/
def part50 : List (ℕ × E) := [
(2855, z 767 ⊛ z 1263 ⊹ z 786 ⊛ z 1198 ⊹ z 789 ⊛ z 1263 ⊹ z 795 ⊛ z 1199 ⊹ z 803 ⊛ z 1271 ⊹ z 808
    ⊛ z 1270 ⊹ z 813 ⊛ z 1264 ⊹ z 818 ⊛ z 1271 ⊹ z 823 ⊛ z 1270 ⊹ z 834 ⊛ z 1274 ⊹ z 838 ⊛ z 1264
    ⊹ z 844 ⊛ z 1273 ⊹ z 862 ⊛ z 2696 ⊹ z 867 ⊛ z 2693 ⊹ z 874 ⊛ z 2696 ⊹ ie11 ⊛ z 74 ⊛ z 1291 ⊹
    ie22 ⊛ z 77 ⊛ z 1286 ⊹ ie31 ⊛ z 74 ⊛ z 1290 ⊹ ie31 ⊛ z 80 ⊛ z 1291 ⊹ ie33 ⊛ z 80 ⊛ z 1290 ⊹
    if11 ⊛ z 92 ⊛ z 1294 ⊹ if11 ⊛ z 97 ⊛ z 1293 ⊹ if22 ⊛ z 77 ⊛ z 1286 ⊹ n 2 ⊛ ig31 ⊛ z 15 ⊛ z 109
    ⊛ z 1285 ⊹ n 2 ⊛ ig33 ⊛ z 15 ⊛ z 117 ⊛ z 1285 ⊹ z 5 ⊛ z 774 ⊛ (pow (z 3) 2 ⊹ pow (z 4) 2) ⊹ mg
    ⊛ (z 209 ⊛ z 2532 ⊹ z 212 ⊛ z 2528 ⊹ z 215 ⊛ z 2530 ⊹ z 213 ⊛ (z 2716 ⊹ z 2718) ⊹ z 210 ⊛ (z
    2707 ⊹ l6 ⊛ z 2693) ⊹ z 216 ⊛ (z 2724 ⊝ l5 ⊛ z 2693)) ⊝ z 857 ⊛ z 2685 ⊝ z 870 ⊛ z 2685 ⊝ n 2
    ⊛ ic22 ⊛ z 46 ⊛ z 1285 ⊝ n 2 ⊛ id22 ⊛ z 46 ⊛ z 1285 ⊝ n 2 ⊛ ig22 ⊛ z 17 ⊛ z 113 ⊛ z 1285 ⊝ z 6
    ⊛ z 770 ⊛ (pow (z 3) 2 ⊹ pow (z 4) 2) ⊝ mc ⊛ (n 2 ⊛ l1 ⊛ z 131 ⊛ z 1285 ⊹ n 2 ⊛ l2 ⊛ z 134 ⊛ z
    1285 ⊝ z 128 ⊛ z 2727 ⊝ l1 ⊛ z 132 ⊛ z 1263 ⊝ l2 ⊛ z 135 ⊛ z 1263) ⊝ me ⊛ (n 2 ⊛ d1 ⊛ z 140 ⊛
    z 1285 ⊹ n 2 ⊛ d1 ⊛ z 168 ⊛ z 1285 ⊝ z 143 ⊛ z 1267 ⊝ z 160 ⊛ z 2733 ⊝ z 162 ⊛ z 2576 ⊝ d1 ⊛ z
    141 ⊛ z 1263 ⊝ d1 ⊛ z 167 ⊛ z 1263 ⊝ z 158 ⊛ z 140 ⊛ z 1286 ⊝ z 158 ⊛ z 141 ⊛ z 1264 ⊝ z 158 ⊛
    z 167 ⊛ z 1264 ⊝ z 158 ⊛ z 168 ⊛ z 1286 ⊝ z 163 ⊛ z 164 ⊛ z 1264 ⊝ z 163 ⊛ z 165 ⊛ z 1286 ⊝ z
    9 ⊛ z 143 ⊛ z 2733 ⊝ z 9 ⊛ z 147 ⊛ z 2576 ⊝ z 9 ⊛ z 160 ⊛ z 1267 ⊝ z 10 ⊛ z 164 ⊛ z 1267 ⊝ z
    163 ⊛ z 10 ⊛ z 143 ⊛ z 1264 ⊝ z 163 ⊛ z 10 ⊛ z 147 ⊛ z 1286) ⊝ mf ⊛ (n 2 ⊛ d1 ⊛ z 140 ⊛ z 1285
    ⊹ n 2 ⊛ d1 ⊛ z 156 ⊛ z 1285 ⊝ z 143 ⊛ z 1267 ⊝ z 149 ⊛ z 1272 ⊝ z 151 ⊛ z 1292 ⊝ d1 ⊛ z 141 ⊛
    z 1263 ⊝ d1 ⊛ z 155 ⊛ z 1263 ⊝ d2 ⊛ z 152 ⊛ z 1264 ⊝ d2 ⊛ z 153 ⊛ z 1286 ⊝ d3 ⊛ z 140 ⊛ z 1286
    ⊝ d3 ⊛ z 141 ⊛ z 1264 ⊝ d3 ⊛ z 155 ⊛ z 1264 ⊝ d3 ⊛ z 156 ⊛ z 1286 ⊝ z 9 ⊛ z 143 ⊛ z 1272 ⊝ z 9
    ⊛ z 147 ⊛ z 1292 ⊝ z 9 ⊛ z 149 ⊛ z 1267 ⊝ z 10 ⊛ z 152 ⊛ z 1267 ⊝ d2 ⊛ z 10 ⊛ z 143 ⊛ z 1264 ⊝
    d2 ⊛ z 10 ⊛ z 147 ⊛ z 1286)),
(2856, z 2855 ⊹ z 538 ⊛ z 2579 ⊹ z 544 ⊛ z 2594 ⊹ z 547 ⊛ z 2593 ⊹ z 915 ⊛ z 1501 ⊹ if22 ⊛ z 83 ⊛
    z 549 ⊛ z 1286 ⊝ z 541 ⊛ z 2577 ⊝ z 911 ⊛ z 1313 ⊝ z 920 ⊛ z 1549 ⊝ z 928 ⊛ z 1580 ⊝ z 934 ⊛ z
    1640),
(2857, (z 494 ⊛ z 536 ⊛ z 2845 ⊹ z 494 ⊛ z 1579 ⊛ z 664 ⊝ z 536 ⊛ z 1312 ⊛ z 664) ⊘ pow (z 494) 2),
(2858, z 841 ⊛ z 1264 ⊹ z 544 ⊛ z 841 ⊛ z 1201 ⊹ z 547 ⊛ z 841 ⊛ z 1286 ⊝ z 923 ⊛ z 1549 ⊝ z 931 ⊛
    z 1580 ⊝ z 937 ⊛ z 1640),
(2859, (z 1312 ⊛ (z 526 ⊛ z 568 ⊹ z 532 ⊛ z 628 ⊝ z 512 ⊛ z 553 ⊝ z 527 ⊛ z 620 ⊝ z 537 ⊛ z 664) ⊝
    z 494 ⊛ (z 526 ⊛ z 2763 ⊹ z 532 ⊛ z 2853 ⊹ z 1626 ⊛ z 568 ⊹ z 1630 ⊛ z 628 ⊝ z 512 ⊛ z 2810 ⊝
    z 527 ⊛ z 2809 ⊝ z 537 ⊛ z 2845 ⊝ z 1631 ⊛ z 553 ⊝ z 1632 ⊛ z 620 ⊝ z 1639 ⊛ z 664)) ⊘ pow (z
    494) 2),
(2860, mg ⊛ (z 209 ⊛ z 2534 ⊹ z 212 ⊛ z 2535 ⊹ z 215 ⊛ z 2536 ⊹ z 187 ⊛ (z 2716 ⊹ z 2718) ⊹ z 182
    ⊛ (z 2707 ⊹ l6 ⊛ z 2693) ⊹ z 192 ⊛ (z 2724 ⊝ l5 ⊛ z 2693)) ⊹ me ⊛ (z 9 ⊛ z 165 ⊛ z 1308 ⊹ z
    163 ⊛ z 9 ⊛ z 120 ⊛ z 1264 ⊝ z 121 ⊛ z 1267 ⊝ z 140 ⊛ z 1307 ⊝ z 168 ⊛ z 1307 ⊝ d1 ⊛ z 122 ⊛ z
    1263 ⊝ z 158 ⊛ z 122 ⊛ z 1264 ⊝ z 9 ⊛ z 121 ⊛ z 2733 ⊝ z 10 ⊛ z 120 ⊛ z 2733 ⊝ z 10 ⊛ z 162 ⊛
    z 1308 ⊝ z 163 ⊛ z 10 ⊛ z 121 ⊛ z 1264) ⊹ mf ⊛ (z 9 ⊛ z 153 ⊛ z 1308 ⊹ d2 ⊛ z 9 ⊛ z 120 ⊛ z
    1264 ⊝ z 121 ⊛ z 1267 ⊝ z 140 ⊛ z 1307 ⊝ z 156 ⊛ z 1307 ⊝ d1 ⊛ z 122 ⊛ z 1263 ⊝ d3 ⊛ z 122 ⊛ z
    1264 ⊝ z 9 ⊛ z 121 ⊛ z 1272 ⊝ z 10 ⊛ z 120 ⊛ z 1272 ⊝ z 10 ⊛ z 151 ⊛ z 1308 ⊝ d2 ⊛ z 10 ⊛ z
    121 ⊛ z 1264) ⊝ mc ⊛ (z 121 ⊛ z 2727 ⊹ z 131 ⊛ z 1307 ⊹ l1 ⊛ z 122 ⊛ z 1263 ⊝ z 134 ⊛ z 1308 ⊝
    l2 ⊛ z 120 ⊛ z 1263)),
(2861, z 2860 ⊹ z 538 ⊛ z 2556 ⊹ z 544 ⊛ z 2557 ⊹ z 547 ⊛ z 2579 ⊹ z 910 ⊛ z 1501 ⊝ z 541 ⊛ z 2551
    ⊝ z 909 ⊛ z 1313 ⊝ z 911 ⊛ z 1580 ⊝ z 912 ⊛ z 1549),
(2862, (z 1312 ⊛ (z 519 ⊛ z 568 ⊹ z 487 ⊛ z 496 ⊛ z 620 ⊝ z 504 ⊛ z 553 ⊝ z 533 ⊛ z 664 ⊝ z 487 ⊛
    z 528 ⊛ z 628) ⊹ z 494 ⊛ (z 504 ⊛ z 2810 ⊹ z 533 ⊛ z 2845 ⊹ z 1283 ⊛ z 553 ⊹ z 1304 ⊛ z 664 ⊹
    z 487 ⊛ z 528 ⊛ z 2853 ⊹ z 487 ⊛ z 1306 ⊛ z 628 ⊹ z 2 ⊛ z 3 ⊛ z 496 ⊛ z 1280 ⊛ z 620 ⊝ z 519 ⊛
    z 2763 ⊝ z 1262 ⊛ z 568 ⊝ z 487 ⊛ z 496 ⊛ z 2809 ⊝ z 487 ⊛ z 1254 ⊛ z 620 ⊝ z 2 ⊛ z 3 ⊛ z 528
    ⊛ z 1280 ⊛ z 628)) ⊘ pow (z 494) 2),
(2863, mg ⊛ (z 209 ⊛ z 2523 ⊹ z 212 ⊛ z 2524 ⊹ z 215 ⊛ z 2525 ⊹ z 188 ⊛ (z 2716 ⊹ z 2718) ⊹ z 183
    ⊛ (z 2707 ⊹ l6 ⊛ z 2693) ⊹ z 193 ⊛ (z 2724 ⊝ l5 ⊛ z 2693)) ⊝ mc ⊛ (z 131 ⊛ z 1256 ⊹ l1 ⊛ z 125
    ⊛ z 1263 ⊝ z 124 ⊛ z 2727 ⊝ z 134 ⊛ z 1257 ⊝ l2 ⊛ z 123 ⊛ z 1263) ⊝ me ⊛ (z 140 ⊛ z 1256 ⊹ z
    168 ⊛ z 1256 ⊹ d1 ⊛ z 125 ⊛ z 1263 ⊹ z 158 ⊛ z 125 ⊛ z 1264 ⊹ z 10 ⊛ z 123 ⊛ z 2733 ⊹ z 10 ⊛ z
    162 ⊛ z 1257 ⊝ z 124 ⊛ z 1267 ⊝ z 9 ⊛ z 124 ⊛ z 2733 ⊝ z 9 ⊛ z 165 ⊛ z 1257 ⊝ z 163 ⊛ z 9 ⊛ z
    123 ⊛ z 1264 ⊝ z 163 ⊛ z 10 ⊛ z 124 ⊛ z 1264) ⊝ mf ⊛ (z 140 ⊛ z 1256 ⊹ z 156 ⊛ z 1256 ⊹ d1 ⊛ z
    125 ⊛ z 1263 ⊹ d3 ⊛ z 125 ⊛ z 1264 ⊹ z 10 ⊛ z 123 ⊛ z 1272 ⊹ z 10 ⊛ z 151 ⊛ z 1257 ⊝ z 124 ⊛ z
    1267 ⊝ z 9 ⊛ z 124 ⊛ z 1272 ⊝ z 9 ⊛ z 153 ⊛ z 1257 ⊝ d2 ⊛ z 9 ⊛ z 123 ⊛ z 1264 ⊝ d2 ⊛ z 10 ⊛ z
    124 ⊛ z 1264)),
(2864, z 2863 ⊹ z 538 ⊛ z 2551 ⊹ z 544 ⊛ z 2554 ⊹ z 547 ⊛ z 2577 ⊹ z 914 ⊛ z 1501 ⊝ z 541 ⊛ z 2550
    ⊝ z 910 ⊛ z 1313 ⊝ z 915 ⊛ z 1580 ⊝ z 916 ⊛ z 1549),
(2865, (z 1312 ⊛ (z 523 ⊛ z 568 ⊹ z 482 ⊛ z 496 ⊛ z 620 ⊝ z 509 ⊛ z 553 ⊝ z 534 ⊛ z 664 ⊝ z 482 ⊛
    z 528 ⊛ z 628) ⊹ z 494 ⊛ (z 509 ⊛ z 2810 ⊹ z 534 ⊛ z 2845 ⊹ z 1494 ⊛ z 553 ⊹ z 1497 ⊛ z 664 ⊹
    z 482 ⊛ z 528 ⊛ z 2853 ⊹ z 482 ⊛ z 1306 ⊛ z 628 ⊹ z 1 ⊛ z 3 ⊛ z 496 ⊛ z 1280 ⊛ z 620 ⊝ z 523 ⊛
    z 2763 ⊝ z 1500 ⊛ z 568 ⊝ z 482 ⊛ z 496 ⊛ z 2809 ⊝ z 482 ⊛ z 1254 ⊛ z 620 ⊝ z 1 ⊛ z 3 ⊛ z 528
    ⊛ z 1280 ⊛ z 628)) ⊘ pow (z 494) 2),
(2866, z 2750 ⊹ z 941 ⊛ z 2857 ⊹ z 947 ⊛ z 2865 ⊹ z 2752 ⊛ z 667 ⊹ z 2856 ⊛ z 668 ⊹ z 2858 ⊛ z 669
    ⊹ z 2861 ⊛ z 665 ⊝ z 940 ⊛ z 2854 ⊝ z 944 ⊛ z 2859 ⊝ z 946 ⊛ z 2862 ⊝ z 2864 ⊛ z 666),
(2867, z 1270 ⊹ z 547 ⊛ z 1290 ⊝ z 52 ⊛ z 1549 ⊝ z 78 ⊛ z 1580 ⊝ z 3 ⊛ z 6 ⊛ z 43 ⊛ z 544),
(2868, z 50 ⊛ z 1549 ⊝ z 3 ⊛ z 5 ⊛ z 43 ⊛ z 544 ⊝ z 6 ⊛ (pow (z 3) 2 ⊹ pow (z 4) 2)),
(2869, z 5 ⊛ (pow (z 3) 2 ⊹ pow (z 4) 2) ⊝ z 48 ⊛ z 1580 ⊝ z 52 ⊛ z 1549 ⊝ z 3 ⊛ z 6 ⊛ z 43 ⊛ z
    544),
(2870, z 2707 ⊹ l6 ⊛ z 2693 ⊹ z 183 ⊛ z 1501 ⊹ z 538 ⊛ z 2534 ⊹ z 544 ⊛ z 2547 ⊹ z 547 ⊛ z 2532 ⊝
    z 182 ⊛ z 1313 ⊝ z 210 ⊛ z 1580 ⊝ z 211 ⊛ z 1549 ⊝ z 541 ⊛ z 2523),
(2871, z 2716 ⊹ z 2718 ⊹ z 188 ⊛ z 1501 ⊹ z 538 ⊛ z 2535 ⊹ z 547 ⊛ z 2528 ⊹ z 544 ⊛ (z 2542 ⊹ z
    2543) ⊝ z 187 ⊛ z 1313 ⊝ z 213 ⊛ z 1580 ⊝ z 214 ⊛ z 1549 ⊝ z 541 ⊛ z 2524),
(2872, z 2724 ⊹ z 193 ⊛ z 1501 ⊹ z 538 ⊛ z 2536 ⊹ z 544 ⊛ z 2545 ⊹ z 547 ⊛ z 2530 ⊝ l5 ⊛ z 2693 ⊝
    z 192 ⊛ z 1313 ⊝ z 216 ⊛ z 1580 ⊝ z 217 ⊛ z 1549 ⊝ z 541 ⊛ z 2525),
(2873, z 2727 ⊹ z 121 ⊛ z 1313 ⊹ z 124 ⊛ z 1501 ⊝ z 128 ⊛ z 1580 ⊝ z 130 ⊛ z 1549 ⊝ z 544 ⊛ z
    2552),
(2874, z 125 ⊛ z 1501 ⊹ z 132 ⊛ z 1580 ⊹ z 538 ⊛ z 1307 ⊹ n 2 ⊛ l1 ⊛ z 547 ⊛ z 1285 ⊝ l1 ⊛ z 1263
    ⊝ z 122 ⊛ z 1313 ⊝ z 138 ⊛ z 1549 ⊝ z 541 ⊛ z 1256 ⊝ z 5 ⊛ z 118 ⊛ z 544),
(2875, l2 ⊛ z 1263 ⊹ z 123 ⊛ z 1501 ⊹ z 538 ⊛ z 1308 ⊹ z 6 ⊛ z 118 ⊛ z 544 ⊝ z 120 ⊛ z 1313 ⊝ z
    135 ⊛ z 1580 ⊝ z 137 ⊛ z 1549 ⊝ z 541 ⊛ z 1257 ⊝ n 2 ⊛ l2 ⊛ z 547 ⊛ z 1285),
(2876, neg (z 2685) ⊝ z 110 ⊛ z 1549 ⊝ z 111 ⊛ z 1580 ⊝ z 43 ⊛ z 544 ⊛ z 2538),
(2877, z 123 ⊛ z 1501 ⊹ z 126 ⊛ z 1549 ⊹ z 538 ⊛ z 1308 ⊹ z 6 ⊛ z 118 ⊛ z 544 ⊝ z 120 ⊛ z 1313 ⊝ z
    541 ⊛ z 1257),
(2878, z 1267 ⊹ z 121 ⊛ z 1313 ⊹ z 124 ⊛ z 1501 ⊝ z 143 ⊛ z 1580 ⊝ z 145 ⊛ z 1549 ⊝ z 544 ⊛ z
    1202),
(2879, z 125 ⊛ z 1501 ⊹ z 141 ⊛ z 1580 ⊹ z 538 ⊛ z 1307 ⊹ n 2 ⊛ d1 ⊛ z 547 ⊛ z 1285 ⊝ d1 ⊛ z 1263
    ⊝ z 122 ⊛ z 1313 ⊝ z 146 ⊛ z 1549 ⊝ z 541 ⊛ z 1256 ⊝ z 5 ⊛ z 118 ⊛ z 544),
(2880, z 167 ⊛ z 1580 ⊹ z 169 ⊛ z 1549 ⊝ z 158 ⊛ z 1264 ⊝ z 158 ⊛ z 544 ⊛ z 1201 ⊝ z 158 ⊛ z 547 ⊛
    z 1286),
(2881, z 163 ⊛ z 1264 ⊹ z 163 ⊛ z 544 ⊛ z 1201 ⊹ z 163 ⊛ z 547 ⊛ z 1286 ⊝ z 164 ⊛ z 1580 ⊝ z 166 ⊛
    z 1549),
(2882, z 2733 ⊹ z 544 ⊛ z 2553 ⊹ z 547 ⊛ z 2576 ⊝ z 159 ⊛ z 1549 ⊝ z 160 ⊛ z 1580)]

/-- _mooreriderlean2012.py:6002-6119 -/
def part51 : List (ℕ × E) := [
(2883, z 155 ⊛ z 1580 ⊹ z 157 ⊛ z 1549 ⊝ d3 ⊛ z 1264 ⊝ d3 ⊛ z 544 ⊛ z 1201 ⊝ d3 ⊛ z 547 ⊛ z 1286),
(2884, d2 ⊛ z 1264 ⊹ d2 ⊛ z 544 ⊛ z 1201 ⊹ d2 ⊛ z 547 ⊛ z 1286 ⊝ z 152 ⊛ z 1580 ⊝ z 154 ⊛ z 1549),
(2885, z 1272 ⊹ z 544 ⊛ z 1210 ⊹ z 547 ⊛ z 1292 ⊝ z 148 ⊛ z 1549 ⊝ z 149 ⊛ z 1580),
(2886, T7 ⊛ z 2867 ⊹ T4 ⊛ z 5 ⊛ z 672 ⊹ T4 ⊛ z 5 ⊛ z 2868 ⊹ T4 ⊛ z 6 ⊛ z 2869 ⊹ z 402 ⊛ (z 4 ⊛ z
    2873 ⊹ z 32 ⊛ z 2874 ⊝ z 42 ⊛ z 2875 ⊝ z 3 ⊛ z 5 ⊛ z 703 ⊝ z 3 ⊛ z 6 ⊛ z 705) ⊹ z 2876 ⊛ z 408
    ⊹ z 13 ⊛ z 2868 ⊛ z 409 ⊹ z 14 ⊛ z 2869 ⊛ z 409 ⊝ T7 ⊛ z 2869 ⊝ T4 ⊛ z 6 ⊛ z 670 ⊝ z 406 ⊛ (z
    744 ⊛ z 2538 ⊝ z 106 ⊛ z 2870 ⊝ z 107 ⊛ z 2871 ⊝ z 108 ⊛ z 2872 ⊝ z 745 ⊛ z 2540 ⊝ z 746 ⊛ z
    2539) ⊝ z 404 ⊛ (z 42 ⊛ z 2877 ⊹ z 3 ⊛ z 5 ⊛ z 720 ⊹ z 3 ⊛ z 6 ⊛ z 716 ⊹ z 3 ⊛ z 6 ⊛ z 719 ⊹ z
    3 ⊛ z 5 ⊛ z 9 ⊛ z 717 ⊝ z 4 ⊛ z 2878 ⊝ z 32 ⊛ z 2879 ⊝ z 32 ⊛ z 2880 ⊝ z 733 ⊛ z 2881 ⊝ z 734
    ⊛ z 2882 ⊝ z 3 ⊛ z 5 ⊛ z 10 ⊛ z 718) ⊝ z 405 ⊛ (z 42 ⊛ z 2877 ⊹ z 3 ⊛ z 5 ⊛ z 720 ⊹ z 3 ⊛ z 6
    ⊛ z 716 ⊹ z 3 ⊛ z 6 ⊛ z 737 ⊹ z 3 ⊛ z 5 ⊛ z 9 ⊛ z 735 ⊝ z 4 ⊛ z 2878 ⊝ z 32 ⊛ z 2879 ⊝ z 32 ⊛
    z 2883 ⊝ z 733 ⊛ z 2884 ⊝ z 734 ⊛ z 2885 ⊝ z 3 ⊛ z 5 ⊛ z 10 ⊛ z 736)),
(2887, z 791 ⊛ z 1263 ⊝ z 921 ⊛ z 1549 ⊝ z 929 ⊛ z 1580 ⊝ n 2 ⊛ z 547 ⊛ z 791 ⊛ z 1285),
(2888, z 2887 ⊹ z 542 ⊛ z 2864 ⊹ z 947 ⊛ z 1495 ⊝ z 539 ⊛ z 2861 ⊝ z 545 ⊛ z 2752 ⊝ z 550 ⊛ z 2858
    ⊝ z 940 ⊛ z 1550 ⊝ z 944 ⊛ z 1642 ⊝ z 946 ⊛ z 1314),
(2889, z 859 ⊛ z 2696 ⊹ z 864 ⊛ z 2693 ⊹ mg ⊛ (z 205 ⊛ (z 2707 ⊹ l6 ⊛ z 2693) ⊝ z 200 ⊛ (z 2716 ⊹
    z 2718) ⊝ z 201 ⊛ (z 2724 ⊝ l5 ⊛ z 2693)) ⊝ z 854 ⊛ z 2685),
(2890, z 2889 ⊹ z 541 ⊛ z 2526 ⊹ z 544 ⊛ z 2570 ⊹ z 547 ⊛ z 2569 ⊹ z 907 ⊛ z 1501 ⊝ z 538 ⊛ z 2537
    ⊝ z 906 ⊛ z 1313 ⊝ z 924 ⊛ z 1549 ⊝ z 932 ⊛ z 1580),
(2891, z 950 ⊛ z 2572 ⊹ z 960 ⊛ z 2888 ⊝ z 945 ⊛ z 2568 ⊝ z 964 ⊛ z 2890),
(2892, z 805 ⊛ z 1271 ⊹ z 810 ⊛ z 1270 ⊹ z 819 ⊛ z 1271 ⊹ z 824 ⊛ z 1270 ⊹ z 836 ⊛ z 1274 ⊹ z 845
    ⊛ z 1273 ⊹ ie11 ⊛ z 74 ⊛ z 1317 ⊹ ie31 ⊛ z 80 ⊛ z 1317 ⊹ if11 ⊛ z 92 ⊛ z 1320 ⊹ if11 ⊛ z 97 ⊛
    z 1319 ⊹ n 2 ⊛ ie31 ⊛ z 74 ⊛ z 1316 ⊹ n 2 ⊛ ie33 ⊛ z 80 ⊛ z 1316 ⊹ me ⊛ z 161 ⊛ (z 2733 ⊹ z 9
    ⊛ z 1267) ⊹ me ⊛ z 2574 ⊛ (z 162 ⊹ z 9 ⊛ z 147) ⊹ mf ⊛ z 150 ⊛ (z 1272 ⊹ z 9 ⊛ z 1267) ⊹ mf ⊛
    z 1318 ⊛ (z 151 ⊹ z 9 ⊛ z 147)),
(2893, z 2892 ⊹ z 544 ⊛ z 2590 ⊹ z 547 ⊛ z 2589 ⊹ z 899 ⊛ z 1313 ⊹ z 900 ⊛ z 1501 ⊝ z 538 ⊛ z 2580
    ⊝ z 541 ⊛ z 2575 ⊝ z 922 ⊛ z 1549 ⊝ z 930 ⊛ z 1580),
(2894, z 2893 ⊹ z 543 ⊛ z 2864 ⊹ z 548 ⊛ z 2856 ⊹ z 551 ⊛ z 2858 ⊹ z 940 ⊛ z 1551 ⊹ z 946 ⊛ z 1324
    ⊝ z 540 ⊛ z 2861 ⊝ z 546 ⊛ z 2752 ⊝ z 941 ⊛ z 1581 ⊝ z 944 ⊛ z 1641 ⊝ z 947 ⊛ z 1498),
(2895, z 950 ⊛ z 2599 ⊹ z 965 ⊛ z 2888 ⊝ z 951 ⊛ z 2568 ⊝ z 964 ⊛ z 2894),
(2896, z 951 ⊛ z 2572 ⊹ z 960 ⊛ z 2894 ⊝ z 945 ⊛ z 2599 ⊝ z 965 ⊛ z 2890),
(2897, z 983 ⊛ z 2891 ⊹ z 997 ⊛ z 2549 ⊝ z 905 ⊛ z 2895 ⊝ z 982 ⊛ z 2896 ⊝ z 999 ⊛ z 2601),
(2898, z 75 ⊛ z 2662 ⊹ z 79 ⊛ z 2671 ⊹ z 93 ⊛ z 2678 ⊹ z 96 ⊛ z 2684 ⊹ z 1317 ⊛ z 807 ⊹ z 1317 ⊛ z
    821 ⊹ z 1317 ⊛ z 829 ⊹ z 1319 ⊛ z 847 ⊹ z 1319 ⊛ z 848 ⊹ z 1320 ⊛ z 837 ⊹ z 1320 ⊛ z 850 ⊹ n 2
    ⊛ z 1316 ⊛ z 812 ⊹ n 2 ⊛ z 1316 ⊛ z 826 ⊹ n 2 ⊛ z 1316 ⊛ z 828 ⊹ ie11 ⊛ z 75 ⊛ z 2649 ⊹ ie31 ⊛
    z 75 ⊛ z 2657 ⊹ ie31 ⊛ z 79 ⊛ z 2649 ⊹ ie33 ⊛ z 79 ⊛ z 2657 ⊹ if11 ⊛ z 93 ⊛ z 2676 ⊹ if11 ⊛ z
    96 ⊛ z 2683 ⊹ me ⊛ z 161 ⊛ (z 2738 ⊹ z 9 ⊛ z 2736 ⊝ z 10 ⊛ z 2735) ⊹ me ⊛ z 2574 ⊛ (z 384 ⊹ z
    9 ⊛ z 373 ⊝ z 10 ⊛ z 372) ⊹ mf ⊛ z 150 ⊛ (z 2742 ⊹ z 9 ⊛ z 2736 ⊝ z 10 ⊛ z 2735) ⊹ mf ⊛ z 1318
    ⊛ (z 378 ⊹ z 9 ⊛ z 373 ⊝ z 10 ⊛ z 372)),
(2899, z 2898 ⊹ z 543 ⊛ z 2749 ⊹ z 548 ⊛ z 2747 ⊹ z 551 ⊛ z 2748 ⊹ z 1324 ⊛ z 913 ⊹ z 1551 ⊛ z 925
    ⊝ z 540 ⊛ z 2745 ⊝ z 546 ⊛ z 2746 ⊝ z 1498 ⊛ z 917 ⊝ z 1581 ⊛ z 933 ⊝ z 1641 ⊛ z 938),
(2900, z 2899 ⊹ z 967 ⊛ z 2857 ⊹ z 972 ⊛ z 2865 ⊹ z 2581 ⊛ z 665 ⊹ z 2584 ⊛ z 667 ⊹ z 2585 ⊛ z 669
    ⊹ z 2595 ⊛ z 668 ⊝ z 970 ⊛ z 2854 ⊝ z 971 ⊛ z 2862 ⊝ z 975 ⊛ z 2859 ⊝ z 2578 ⊛ z 666),
(2901, n 2 ⊛ z 1316 ⊹ z 52 ⊛ z 1551 ⊹ z 548 ⊛ z 1290 ⊹ z 3 ⊛ z 6 ⊛ z 43 ⊛ z 546 ⊝ z 78 ⊛ z 1581),
(2902, z 3 ⊛ z 5 ⊛ z 43 ⊛ z 546 ⊝ z 50 ⊛ z 1551),
(2903, z 52 ⊛ z 1551 ⊹ z 3 ⊛ z 6 ⊛ z 43 ⊛ z 546 ⊝ z 48 ⊛ z 1581),
(2904, z 182 ⊛ z 1324 ⊹ z 211 ⊛ z 1551 ⊹ z 543 ⊛ z 2523 ⊹ z 548 ⊛ z 2532 ⊝ z 183 ⊛ z 1498 ⊝ z 210
    ⊛ z 1581 ⊝ z 540 ⊛ z 2534 ⊝ z 546 ⊛ z 2547),
(2905, z 187 ⊛ z 1324 ⊹ z 214 ⊛ z 1551 ⊹ z 543 ⊛ z 2524 ⊹ z 548 ⊛ z 2528 ⊝ z 188 ⊛ z 1498 ⊝ z 213
    ⊛ z 1581 ⊝ z 540 ⊛ z 2535 ⊝ z 546 ⊛ (z 2542 ⊹ z 2543)),
(2906, z 192 ⊛ z 1324 ⊹ z 217 ⊛ z 1551 ⊹ z 543 ⊛ z 2525 ⊹ z 548 ⊛ z 2530 ⊝ z 193 ⊛ z 1498 ⊝ z 216
    ⊛ z 1581 ⊝ z 540 ⊛ z 2536 ⊝ z 546 ⊛ z 2545),
(2907, z 130 ⊛ z 1551 ⊹ z 546 ⊛ z 2552 ⊝ z 121 ⊛ z 1324 ⊝ z 124 ⊛ z 1498 ⊝ z 128 ⊛ z 1581),
(2908, z 122 ⊛ z 1324 ⊹ z 132 ⊛ z 1581 ⊹ z 138 ⊛ z 1551 ⊹ z 543 ⊛ z 1256 ⊹ z 5 ⊛ z 118 ⊛ z 546 ⊹ n
    2 ⊛ l1 ⊛ z 548 ⊛ z 1285 ⊝ z 125 ⊛ z 1498 ⊝ z 540 ⊛ z 1307),
(2909, z 120 ⊛ z 1324 ⊹ z 137 ⊛ z 1551 ⊹ z 543 ⊛ z 1257 ⊝ z 123 ⊛ z 1498 ⊝ z 135 ⊛ z 1581 ⊝ z 540
    ⊛ z 1308 ⊝ n 2 ⊛ l2 ⊛ z 548 ⊛ z 1285 ⊝ z 6 ⊛ z 118 ⊛ z 546),
(2910, z 110 ⊛ z 1551 ⊹ z 43 ⊛ z 546 ⊛ z 2538 ⊝ z 111 ⊛ z 1581),
(2911, z 120 ⊛ z 1324 ⊹ z 543 ⊛ z 1257 ⊝ z 123 ⊛ z 1498 ⊝ z 126 ⊛ z 1551 ⊝ z 540 ⊛ z 1308 ⊝ z 6 ⊛
    z 118 ⊛ z 546),
(2912, z 145 ⊛ z 1551 ⊹ z 546 ⊛ z 1202 ⊝ z 121 ⊛ z 1324 ⊝ z 124 ⊛ z 1498 ⊝ z 143 ⊛ z 1581),
(2913, z 122 ⊛ z 1324 ⊹ z 141 ⊛ z 1581 ⊹ z 146 ⊛ z 1551 ⊹ z 543 ⊛ z 1256 ⊹ z 5 ⊛ z 118 ⊛ z 546 ⊹ n
    2 ⊛ d1 ⊛ z 548 ⊛ z 1285 ⊝ z 125 ⊛ z 1498 ⊝ z 540 ⊛ z 1307),
(2914, z 167 ⊛ z 1581 ⊹ z 158 ⊛ z 546 ⊛ z 1201 ⊝ z 169 ⊛ z 1551 ⊝ z 158 ⊛ z 548 ⊛ z 1286),
(2915, z 2574 ⊹ z 159 ⊛ z 1551 ⊹ z 548 ⊛ z 2576 ⊝ z 160 ⊛ z 1581 ⊝ z 546 ⊛ z 2553),
(2916, z 166 ⊛ z 1551 ⊹ z 163 ⊛ z 548 ⊛ z 1286 ⊝ z 164 ⊛ z 1581 ⊝ z 163 ⊛ z 546 ⊛ z 1201),
(2917, z 155 ⊛ z 1581 ⊹ d3 ⊛ z 546 ⊛ z 1201 ⊝ z 157 ⊛ z 1551 ⊝ d3 ⊛ z 548 ⊛ z 1286),
(2918, z 154 ⊛ z 1551 ⊹ d2 ⊛ z 548 ⊛ z 1286 ⊝ z 152 ⊛ z 1581 ⊝ d2 ⊛ z 546 ⊛ z 1201),
(2919, z 1318 ⊹ z 148 ⊛ z 1551 ⊹ z 548 ⊛ z 1292 ⊝ z 149 ⊛ z 1581 ⊝ z 546 ⊛ z 1210),
(2920, T7 ⊛ z 2901 ⊹ T4 ⊛ z 5 ⊛ z 678 ⊹ T4 ⊛ z 5 ⊛ z 2902 ⊹ T4 ⊛ z 6 ⊛ z 2903 ⊹ z 402 ⊛ (z 4 ⊛ z
    2907 ⊹ z 32 ⊛ z 2908 ⊝ z 42 ⊛ z 2909 ⊝ z 3 ⊛ z 5 ⊛ z 709 ⊝ z 3 ⊛ z 6 ⊛ z 711) ⊹ z 2910 ⊛ z 408
    ⊹ z 13 ⊛ z 2902 ⊛ z 409 ⊹ z 14 ⊛ z 2903 ⊛ z 409 ⊝ T7 ⊛ z 2903 ⊝ T4 ⊛ z 6 ⊛ z 676 ⊝ z 406 ⊛ (z
    750 ⊛ z 2538 ⊝ z 106 ⊛ z 2904 ⊝ z 107 ⊛ z 2905 ⊝ z 108 ⊛ z 2906 ⊝ z 751 ⊛ z 2540 ⊝ z 752 ⊛ z
    2539) ⊝ z 404 ⊛ (z 42 ⊛ z 2911 ⊹ z 3 ⊛ z 5 ⊛ z 728 ⊹ z 3 ⊛ z 6 ⊛ z 730 ⊹ z 3 ⊛ z 6 ⊛ z 732 ⊹ z
    3 ⊛ z 5 ⊛ z 9 ⊛ z 731 ⊝ z 4 ⊛ z 2912 ⊝ z 32 ⊛ z 2913 ⊝ z 32 ⊛ z 2914 ⊝ z 733 ⊛ z 2916 ⊝ z 734
    ⊛ z 2915 ⊝ z 3 ⊛ z 5 ⊛ z 10 ⊛ z 727) ⊝ z 405 ⊛ (z 42 ⊛ z 2911 ⊹ z 3 ⊛ z 5 ⊛ z 728 ⊹ z 3 ⊛ z 6
    ⊛ z 730 ⊹ z 3 ⊛ z 6 ⊛ z 743 ⊹ z 3 ⊛ z 5 ⊛ z 9 ⊛ z 742 ⊝ z 4 ⊛ z 2912 ⊝ z 32 ⊛ z 2913 ⊝ z 32 ⊛
    z 2917 ⊝ z 733 ⊛ z 2918 ⊝ z 734 ⊛ z 2919 ⊝ z 3 ⊛ z 5 ⊛ z 10 ⊛ z 741)),
(2921, z 950 ⊛ z 2571 ⊹ z 973 ⊛ z 2888 ⊝ z 945 ⊛ z 2586 ⊝ z 978 ⊛ z 2890),
(2922, z 950 ⊛ z 2596 ⊹ z 979 ⊛ z 2888 ⊝ z 951 ⊛ z 2586 ⊝ z 978 ⊛ z 2894),
(2923, z 951 ⊛ z 2571 ⊹ z 973 ⊛ z 2894 ⊝ z 945 ⊛ z 2596 ⊝ z 979 ⊛ z 2890),
(2924, z 983 ⊛ z 2921 ⊹ z 1013 ⊛ z 2549 ⊝ z 905 ⊛ z 2922 ⊝ z 982 ⊛ z 2923 ⊝ z 1014 ⊛ z 2601),
(2925, z 53 ⊛ (z 2625 ⊹ id22 ⊛ z 2620)),
(2926, z 2925 ⊹ z 542 ⊛ z 2749 ⊹ z 1495 ⊛ z 917 ⊝ z 539 ⊛ z 2745 ⊝ z 545 ⊛ z 2746 ⊝ z 550 ⊛ z 2748
    ⊝ z 1314 ⊛ z 913 ⊝ z 1550 ⊛ z 925 ⊝ z 1642 ⊛ z 938),
(2927, z 2926 ⊹ z 954 ⊛ z 2857 ⊹ z 958 ⊛ z 2865 ⊹ z 2558 ⊛ z 665 ⊹ z 2566 ⊛ z 667 ⊹ z 2567 ⊛ z 669
    ⊹ z 2598 ⊛ z 668 ⊝ z 955 ⊛ z 2854 ⊝ z 957 ⊛ z 2862 ⊝ z 961 ⊛ z 2859 ⊝ z 2555 ⊛ z 666),
(2928, z 50 ⊛ z 1550 ⊹ z 3 ⊛ z 5 ⊛ z 43 ⊛ z 545),
(2929, z 183 ⊛ z 1495 ⊹ z 542 ⊛ z 2523 ⊝ z 182 ⊛ z 1314 ⊝ z 211 ⊛ z 1550 ⊝ z 539 ⊛ z 2534 ⊝ z 545
    ⊛ z 2547),
(2930, z 188 ⊛ z 1495 ⊹ z 542 ⊛ z 2524 ⊝ z 187 ⊛ z 1314 ⊝ z 214 ⊛ z 1550 ⊝ z 539 ⊛ z 2535 ⊝ z 545
    ⊛ (z 2542 ⊹ z 2543))]

/-- _mooreriderlean2012.py:6120-6212 -/
def part52 : List (ℕ × E) := [
(2931, z 193 ⊛ z 1495 ⊹ z 542 ⊛ z 2525 ⊝ z 192 ⊛ z 1314 ⊝ z 217 ⊛ z 1550 ⊝ z 539 ⊛ z 2536 ⊝ z 545
    ⊛ z 2545),
(2932, z 121 ⊛ z 1314 ⊹ z 124 ⊛ z 1495 ⊹ z 545 ⊛ z 2552 ⊝ z 130 ⊛ z 1550),
(2933, z 125 ⊛ z 1495 ⊹ z 542 ⊛ z 1256 ⊹ z 5 ⊛ z 118 ⊛ z 545 ⊝ z 122 ⊛ z 1314 ⊝ z 138 ⊛ z 1550 ⊝ z
    539 ⊛ z 1307),
(2934, z 123 ⊛ z 1495 ⊹ z 542 ⊛ z 1257 ⊝ z 120 ⊛ z 1314 ⊝ z 137 ⊛ z 1550 ⊝ z 539 ⊛ z 1308 ⊝ z 6 ⊛
    z 118 ⊛ z 545),
(2935, z 121 ⊛ z 1314 ⊹ z 124 ⊛ z 1495 ⊹ z 545 ⊛ z 1202 ⊝ z 145 ⊛ z 1550),
(2936, z 125 ⊛ z 1495 ⊹ z 542 ⊛ z 1256 ⊹ z 5 ⊛ z 118 ⊛ z 545 ⊝ z 122 ⊛ z 1314 ⊝ z 146 ⊛ z 1550 ⊝ z
    539 ⊛ z 1307),
(2937, z 169 ⊛ z 1550 ⊹ z 158 ⊛ z 545 ⊛ z 1201),
(2938, z 123 ⊛ z 1495 ⊹ z 126 ⊛ z 1550 ⊹ z 542 ⊛ z 1257 ⊝ z 120 ⊛ z 1314 ⊝ z 539 ⊛ z 1308 ⊝ z 6 ⊛
    z 118 ⊛ z 545),
(2939, z 166 ⊛ z 1550 ⊹ z 163 ⊛ z 545 ⊛ z 1201),
(2940, z 159 ⊛ z 1550 ⊹ z 545 ⊛ z 2553),
(2941, z 157 ⊛ z 1550 ⊹ d3 ⊛ z 545 ⊛ z 1201),
(2942, z 154 ⊛ z 1550 ⊹ d2 ⊛ z 545 ⊛ z 1201),
(2943, z 148 ⊛ z 1550 ⊹ z 545 ⊛ z 1210),
(2944, z 52 ⊛ z 1550 ⊝ z 3 ⊛ z 6 ⊛ z 43 ⊛ z 545),
(2945, z 110 ⊛ z 1550 ⊝ z 43 ⊛ z 545 ⊛ z 2538),
(2946, T4 ⊛ z 5 ⊛ z 2928 ⊹ z 402 ⊛ (z 4 ⊛ z 2932 ⊹ z 32 ⊛ z 2933 ⊝ z 42 ⊛ z 2934 ⊝ z 3 ⊛ z 5 ⊛ z
    706 ⊝ z 3 ⊛ z 6 ⊛ z 708) ⊹ z 404 ⊛ (z 4 ⊛ z 2935 ⊹ z 32 ⊛ z 2936 ⊹ z 32 ⊛ z 2937 ⊹ z 3 ⊛ z 5 ⊛
    z 9 ⊛ z 724 ⊝ z 42 ⊛ z 2938 ⊝ z 733 ⊛ z 2939 ⊝ z 734 ⊛ z 2940 ⊝ z 3 ⊛ z 5 ⊛ z 721 ⊝ z 3 ⊛ z 6
    ⊛ z 723 ⊝ z 3 ⊛ z 6 ⊛ z 726 ⊝ z 3 ⊛ z 5 ⊛ z 10 ⊛ z 725) ⊹ z 405 ⊛ (z 4 ⊛ z 2935 ⊹ z 32 ⊛ z
    2936 ⊹ z 32 ⊛ z 2941 ⊹ z 3 ⊛ z 5 ⊛ z 9 ⊛ z 738 ⊝ z 42 ⊛ z 2938 ⊝ z 733 ⊛ z 2942 ⊝ z 734 ⊛ z
    2943 ⊝ z 3 ⊛ z 5 ⊛ z 721 ⊝ z 3 ⊛ z 6 ⊛ z 723 ⊝ z 3 ⊛ z 6 ⊛ z 740 ⊝ z 3 ⊛ z 5 ⊛ z 10 ⊛ z 739) ⊹
    z 13 ⊛ z 2928 ⊛ z 409 ⊝ T4 ⊛ z 5 ⊛ z 675 ⊝ T4 ⊛ z 6 ⊛ z 673 ⊝ T4 ⊛ z 6 ⊛ z 2944 ⊝ z 406 ⊛ (z
    747 ⊛ z 2538 ⊝ z 106 ⊛ z 2929 ⊝ z 107 ⊛ z 2930 ⊝ z 108 ⊛ z 2931 ⊝ z 748 ⊛ z 2540 ⊝ z 749 ⊛ z
    2539) ⊝ z 2945 ⊛ z 408 ⊝ z 14 ⊛ z 2944 ⊛ z 409),
(2947, z 979 ⊛ z 2891 ⊹ z 997 ⊛ z 2596 ⊝ z 973 ⊛ z 2895 ⊝ z 978 ⊛ z 2896 ⊝ z 995 ⊛ z 2571 ⊝ z 999
    ⊛ z 2586),
(2948, z 98 ⊛ z 2699 ⊹ z 99 ⊛ z 2705 ⊹ ig11 ⊛ z 98 ⊛ z 2688 ⊹ ig22 ⊛ z 99 ⊛ z 2703 ⊹ ig31 ⊛ z 98 ⊛
    z 2692 ⊝ mg ⊛ (z 200 ⊛ z 2723 ⊹ z 201 ⊛ z 2726 ⊝ z 205 ⊛ z 2717)),
(2949, z 2948 ⊹ z 903 ⊛ z 2857 ⊹ z 907 ⊛ z 2865 ⊹ z 2526 ⊛ z 666 ⊹ z 2533 ⊛ z 668 ⊹ z 2548 ⊛ z 667
    ⊝ z 902 ⊛ z 2854 ⊝ z 906 ⊛ z 2862 ⊝ z 2537 ⊛ z 665),
(2950, z 406 ⊛ (z 200 ⊛ z 2540 ⊹ z 201 ⊛ z 2539 ⊹ z 205 ⊛ z 2538)),
(2951, ic11 ⊛ z 6 ⊛ (pow (z 3) 2 ⊹ pow (z 4) 2)),
(2952, ic31 ⊛ z 5 ⊛ (pow (z 3) 2 ⊹ pow (z 4) 2)),
(2953, ic31 ⊛ z 6 ⊛ (pow (z 3) 2 ⊹ pow (z 4) 2)),
(2954, ic33 ⊛ z 5 ⊛ (pow (z 3) 2 ⊹ pow (z 4) 2)),
(2955, z 45 ⊛ z 2952 ⊹ z 49 ⊛ z 2954 ⊹ z 766 ⊛ z 1263 ⊹ z 788 ⊛ z 1263 ⊹ z 793 ⊛ z 1199 ⊹ z 804 ⊛
    z 1271 ⊹ z 809 ⊛ z 1270 ⊹ z 814 ⊛ z 1264 ⊹ z 820 ⊛ z 1271 ⊹ z 825 ⊛ z 1270 ⊹ z 835 ⊛ z 1274 ⊹
    z 839 ⊛ z 1264 ⊹ z 846 ⊛ z 1273 ⊹ z 860 ⊛ z 2696 ⊹ z 866 ⊛ z 2693 ⊹ z 875 ⊛ z 2696 ⊹ ic22 ⊛ z
    46 ⊛ z 1263 ⊹ id11 ⊛ z 63 ⊛ z 1199 ⊹ id22 ⊛ z 46 ⊛ z 1263 ⊹ ie11 ⊛ z 74 ⊛ z 1271 ⊹ ie22 ⊛ z 77
    ⊛ z 1264 ⊹ ie31 ⊛ z 74 ⊛ z 1270 ⊹ ie31 ⊛ z 80 ⊛ z 1271 ⊹ ie33 ⊛ z 80 ⊛ z 1270 ⊹ if11 ⊛ z 92 ⊛
    z 1274 ⊹ if11 ⊛ z 97 ⊛ z 1273 ⊹ if22 ⊛ z 77 ⊛ z 1264 ⊹ ig22 ⊛ z 113 ⊛ z 2693 ⊹ ig31 ⊛ z 109 ⊛
    z 2696 ⊹ ig33 ⊛ z 117 ⊛ z 2696 ⊹ z 5 ⊛ z 763 ⊛ (pow (z 3) 2 ⊹ pow (z 4) 2) ⊹ z 5 ⊛ z 775 ⊛
    (pow (z 3) 2 ⊹ pow (z 4) 2) ⊹ n 2 ⊛ mc ⊛ (z 139 ⊛ z 2727 ⊹ l1 ⊛ z 131 ⊛ z 1263 ⊹ l2 ⊛ z 134 ⊛
    z 1263) ⊹ n 2 ⊛ mg ⊛ (z 212 ⊛ (z 2716 ⊹ z 2718) ⊹ z 209 ⊛ (z 2707 ⊹ l6 ⊛ z 2693) ⊹ z 215 ⊛ (z
    2724 ⊝ l5 ⊛ z 2693)) ⊹ n 2 ⊛ me ⊛ (z 147 ⊛ z 1267 ⊹ z 162 ⊛ z 2733 ⊹ d1 ⊛ z 140 ⊛ z 1263 ⊹ d1
    ⊛ z 168 ⊛ z 1263 ⊹ z 158 ⊛ z 140 ⊛ z 1264 ⊹ z 158 ⊛ z 168 ⊛ z 1264 ⊹ z 163 ⊛ z 165 ⊛ z 1264 ⊹
    z 9 ⊛ z 147 ⊛ z 2733 ⊹ z 9 ⊛ z 162 ⊛ z 1267 ⊹ z 10 ⊛ z 165 ⊛ z 1267 ⊹ z 163 ⊛ z 10 ⊛ z 147 ⊛ z
    1264) ⊹ n 2 ⊛ mf ⊛ (z 147 ⊛ z 1267 ⊹ z 151 ⊛ z 1272 ⊹ d1 ⊛ z 140 ⊛ z 1263 ⊹ d1 ⊛ z 156 ⊛ z
    1263 ⊹ d2 ⊛ z 153 ⊛ z 1264 ⊹ d3 ⊛ z 140 ⊛ z 1264 ⊹ d3 ⊛ z 156 ⊛ z 1264 ⊹ z 9 ⊛ z 147 ⊛ z 1272
    ⊹ z 9 ⊛ z 151 ⊛ z 1267 ⊹ z 10 ⊛ z 153 ⊛ z 1267 ⊹ d2 ⊛ z 10 ⊛ z 147 ⊛ z 1264) ⊝ z 45 ⊛ z 2951 ⊝
    z 49 ⊛ z 2953 ⊝ z 784 ⊛ z 1198 ⊝ z 855 ⊛ z 2685 ⊝ z 871 ⊛ z 2685 ⊝ id11 ⊛ z 60 ⊛ z 1198 ⊝ ig11
    ⊛ z 109 ⊛ z 2685 ⊝ ig31 ⊛ z 117 ⊛ z 2685 ⊝ z 6 ⊛ z 760 ⊛ (pow (z 3) 2 ⊹ pow (z 4) 2) ⊝ z 6 ⊛ z
    771 ⊛ (pow (z 3) 2 ⊹ pow (z 4) 2)),
(2956, z 50 ⊛ z 2951 ⊹ z 52 ⊛ z 2954 ⊹ z 814 ⊛ z 1201 ⊹ z 839 ⊛ z 1201 ⊹ ic22 ⊛ z 51 ⊛ z 1263 ⊹
    id11 ⊛ z 64 ⊛ z 1199 ⊹ id22 ⊛ z 51 ⊛ z 1263 ⊹ ie11 ⊛ z 81 ⊛ z 1271 ⊹ ie22 ⊛ z 82 ⊛ z 1264 ⊹
    ie31 ⊛ z 52 ⊛ z 1271 ⊹ ie31 ⊛ z 81 ⊛ z 1270 ⊹ ie33 ⊛ z 52 ⊛ z 1270 ⊹ if11 ⊛ z 90 ⊛ z 1274 ⊹
    if11 ⊛ z 94 ⊛ z 1273 ⊹ if22 ⊛ z 82 ⊛ z 1264 ⊹ ig22 ⊛ z 112 ⊛ z 2693 ⊹ ig31 ⊛ z 110 ⊛ z 2696 ⊹
    ig33 ⊛ z 115 ⊛ z 2696 ⊹ z 43 ⊛ z 835 ⊛ z 1214 ⊹ z 43 ⊛ z 860 ⊛ z 2539 ⊹ z 43 ⊛ z 866 ⊛ z 2540
    ⊹ z 43 ⊛ z 875 ⊛ z 2539 ⊹ mg ⊛ (z 209 ⊛ z 2547 ⊹ z 215 ⊛ z 2545 ⊹ z 212 ⊛ (z 2542 ⊹ z 2543) ⊹
    z 214 ⊛ (z 2716 ⊹ z 2718) ⊹ z 211 ⊛ (z 2707 ⊹ l6 ⊛ z 2693) ⊹ z 217 ⊛ (z 2724 ⊝ l5 ⊛ z 2693)) ⊹
    me ⊛ (z 145 ⊛ z 1267 ⊹ z 159 ⊛ z 2733 ⊹ z 162 ⊛ z 2553 ⊹ d1 ⊛ z 169 ⊛ z 1263 ⊹ z 158 ⊛ z 140 ⊛
    z 1201 ⊹ z 158 ⊛ z 168 ⊛ z 1201 ⊹ z 158 ⊛ z 169 ⊛ z 1264 ⊹ z 163 ⊛ z 165 ⊛ z 1201 ⊹ z 163 ⊛ z
    166 ⊛ z 1264 ⊹ z 5 ⊛ z 118 ⊛ z 140 ⊹ z 5 ⊛ z 118 ⊛ z 168 ⊹ z 9 ⊛ z 145 ⊛ z 2733 ⊹ z 9 ⊛ z 147
    ⊛ z 2553 ⊹ z 9 ⊛ z 159 ⊛ z 1267 ⊹ z 10 ⊛ z 126 ⊛ z 2733 ⊹ z 10 ⊛ z 166 ⊛ z 1267 ⊹ z 163 ⊛ z 10
    ⊛ z 145 ⊛ z 1264 ⊹ z 163 ⊛ z 10 ⊛ z 147 ⊛ z 1201 ⊹ z 6 ⊛ z 9 ⊛ z 118 ⊛ z 165 ⊝ z 147 ⊛ z 1202
    ⊝ d1 ⊛ z 146 ⊛ z 1263 ⊝ z 158 ⊛ z 146 ⊛ z 1264 ⊝ z 9 ⊛ z 162 ⊛ z 1202 ⊝ z 10 ⊛ z 165 ⊛ z 1202
    ⊝ z 163 ⊛ z 9 ⊛ z 126 ⊛ z 1264 ⊝ z 6 ⊛ z 10 ⊛ z 118 ⊛ z 162) ⊹ mf ⊛ (z 145 ⊛ z 1267 ⊹ z 148 ⊛
    z 1272 ⊹ z 151 ⊛ z 1210 ⊹ d1 ⊛ z 157 ⊛ z 1263 ⊹ d2 ⊛ z 153 ⊛ z 1201 ⊹ d2 ⊛ z 154 ⊛ z 1264 ⊹ d3
    ⊛ z 140 ⊛ z 1201 ⊹ d3 ⊛ z 156 ⊛ z 1201 ⊹ d3 ⊛ z 157 ⊛ z 1264 ⊹ z 5 ⊛ z 118 ⊛ z 140 ⊹ z 5 ⊛ z
    118 ⊛ z 156 ⊹ z 9 ⊛ z 145 ⊛ z 1272 ⊹ z 9 ⊛ z 147 ⊛ z 1210 ⊹ z 9 ⊛ z 148 ⊛ z 1267 ⊹ z 10 ⊛ z
    126 ⊛ z 1272 ⊹ z 10 ⊛ z 154 ⊛ z 1267 ⊹ d2 ⊛ z 10 ⊛ z 145 ⊛ z 1264 ⊹ d2 ⊛ z 10 ⊛ z 147 ⊛ z 1201
    ⊹ z 6 ⊛ z 9 ⊛ z 118 ⊛ z 153 ⊝ z 147 ⊛ z 1202 ⊝ d1 ⊛ z 146 ⊛ z 1263 ⊝ d3 ⊛ z 146 ⊛ z 1264 ⊝ z 9
    ⊛ z 151 ⊛ z 1202 ⊝ z 10 ⊛ z 153 ⊛ z 1202 ⊝ d2 ⊛ z 9 ⊛ z 126 ⊛ z 1264 ⊝ z 6 ⊛ z 10 ⊛ z 118 ⊛ z
    151) ⊝ z 50 ⊛ z 2952 ⊝ z 52 ⊛ z 2953 ⊝ z 804 ⊛ z 1209 ⊝ z 820 ⊛ z 1209 ⊝ id11 ⊛ z 61 ⊛ z 1198
    ⊝ ig11 ⊛ z 110 ⊛ z 2685 ⊝ ig31 ⊛ z 115 ⊛ z 2685 ⊝ z 43 ⊛ z 784 ⊛ z 1278 ⊝ z 43 ⊛ z 793 ⊛ z
    1279 ⊝ z 43 ⊛ z 846 ⊛ z 1213 ⊝ z 43 ⊛ z 855 ⊛ z 2538 ⊝ z 43 ⊛ z 871 ⊛ z 2538 ⊝ z 3 ⊛ z 5 ⊛ z
    43 ⊛ z 760 ⊝ z 3 ⊛ z 5 ⊛ z 43 ⊛ z 771 ⊝ z 3 ⊛ z 6 ⊛ z 43 ⊛ z 763 ⊝ z 3 ⊛ z 6 ⊛ z 43 ⊛ z 775 ⊝
    z 3 ⊛ z 6 ⊛ z 43 ⊛ z 809 ⊝ z 3 ⊛ z 6 ⊛ z 43 ⊛ z 825 ⊝ mc ⊛ (z 139 ⊛ z 2552 ⊹ l1 ⊛ z 138 ⊛ z
    1263 ⊝ z 130 ⊛ z 2727 ⊝ l2 ⊛ z 137 ⊛ z 1263 ⊝ z 5 ⊛ z 118 ⊛ z 131 ⊝ z 6 ⊛ z 118 ⊛ z 134))]

/-- _mooreriderlean2012.py:6213-6331 -/
def part53 : List (ℕ × E) := [
(2957, z 48 ⊛ z 2954 ⊹ z 804 ⊛ z 1291 ⊹ z 809 ⊛ z 1290 ⊹ z 814 ⊛ z 1286 ⊹ z 820 ⊛ z 1291 ⊹ z 825 ⊛
    z 1290 ⊹ z 835 ⊛ z 1294 ⊹ z 839 ⊛ z 1286 ⊹ z 846 ⊛ z 1293 ⊹ ic22 ⊛ z 47 ⊛ z 1263 ⊹ id11 ⊛ z 62
    ⊛ z 1198 ⊹ id11 ⊛ z 65 ⊛ z 1199 ⊹ id22 ⊛ z 47 ⊛ z 1263 ⊹ ie11 ⊛ z 73 ⊛ z 1271 ⊹ ie22 ⊛ z 76 ⊛
    z 1264 ⊹ ie31 ⊛ z 73 ⊛ z 1270 ⊹ ie31 ⊛ z 78 ⊛ z 1271 ⊹ ie33 ⊛ z 78 ⊛ z 1270 ⊹ if11 ⊛ z 91 ⊛ z
    1274 ⊹ if11 ⊛ z 95 ⊛ z 1273 ⊹ if22 ⊛ z 76 ⊛ z 1264 ⊹ ig22 ⊛ z 114 ⊛ z 2693 ⊹ ig31 ⊛ z 111 ⊛ z
    2696 ⊹ ig33 ⊛ z 116 ⊛ z 2696 ⊹ n 2 ⊛ z 15 ⊛ z 860 ⊛ z 1285 ⊹ n 2 ⊛ z 15 ⊛ z 875 ⊛ z 1285 ⊹ mg
    ⊛ (z 209 ⊛ z 2532 ⊹ z 212 ⊛ z 2528 ⊹ z 215 ⊛ z 2530 ⊹ z 213 ⊛ (z 2716 ⊹ z 2718) ⊹ z 210 ⊛ (z
    2707 ⊹ l6 ⊛ z 2693) ⊹ z 216 ⊛ (z 2724 ⊝ l5 ⊛ z 2693)) ⊝ n 2 ⊛ z 766 ⊛ z 1285 ⊝ n 2 ⊛ z 788 ⊛ z
    1285 ⊝ z 48 ⊛ z 2953 ⊝ n 2 ⊛ z 17 ⊛ z 866 ⊛ z 1285 ⊝ ig11 ⊛ z 111 ⊛ z 2685 ⊝ ig31 ⊛ z 116 ⊛ z
    2685 ⊝ mc ⊛ (n 2 ⊛ l1 ⊛ z 131 ⊛ z 1285 ⊹ n 2 ⊛ l2 ⊛ z 134 ⊛ z 1285 ⊝ z 128 ⊛ z 2727 ⊝ l1 ⊛ z
    132 ⊛ z 1263 ⊝ l2 ⊛ z 135 ⊛ z 1263) ⊝ me ⊛ (n 2 ⊛ d1 ⊛ z 140 ⊛ z 1285 ⊹ n 2 ⊛ d1 ⊛ z 168 ⊛ z
    1285 ⊝ z 143 ⊛ z 1267 ⊝ z 160 ⊛ z 2733 ⊝ z 162 ⊛ z 2576 ⊝ d1 ⊛ z 141 ⊛ z 1263 ⊝ d1 ⊛ z 167 ⊛ z
    1263 ⊝ z 158 ⊛ z 140 ⊛ z 1286 ⊝ z 158 ⊛ z 141 ⊛ z 1264 ⊝ z 158 ⊛ z 167 ⊛ z 1264 ⊝ z 158 ⊛ z
    168 ⊛ z 1286 ⊝ z 163 ⊛ z 164 ⊛ z 1264 ⊝ z 163 ⊛ z 165 ⊛ z 1286 ⊝ z 9 ⊛ z 143 ⊛ z 2733 ⊝ z 9 ⊛
    z 147 ⊛ z 2576 ⊝ z 9 ⊛ z 160 ⊛ z 1267 ⊝ z 10 ⊛ z 164 ⊛ z 1267 ⊝ z 163 ⊛ z 10 ⊛ z 143 ⊛ z 1264
    ⊝ z 163 ⊛ z 10 ⊛ z 147 ⊛ z 1286) ⊝ mf ⊛ (n 2 ⊛ d1 ⊛ z 140 ⊛ z 1285 ⊹ n 2 ⊛ d1 ⊛ z 156 ⊛ z 1285
    ⊝ z 143 ⊛ z 1267 ⊝ z 149 ⊛ z 1272 ⊝ z 151 ⊛ z 1292 ⊝ d1 ⊛ z 141 ⊛ z 1263 ⊝ d1 ⊛ z 155 ⊛ z 1263
    ⊝ d2 ⊛ z 152 ⊛ z 1264 ⊝ d2 ⊛ z 153 ⊛ z 1286 ⊝ d3 ⊛ z 140 ⊛ z 1286 ⊝ d3 ⊛ z 141 ⊛ z 1264 ⊝ d3 ⊛
    z 155 ⊛ z 1264 ⊝ d3 ⊛ z 156 ⊛ z 1286 ⊝ z 9 ⊛ z 143 ⊛ z 1272 ⊝ z 9 ⊛ z 147 ⊛ z 1292 ⊝ z 9 ⊛ z
    149 ⊛ z 1267 ⊝ z 10 ⊛ z 152 ⊛ z 1267 ⊝ d2 ⊛ z 10 ⊛ z 143 ⊛ z 1264 ⊝ d2 ⊛ z 10 ⊛ z 147 ⊛ z
    1286)),
(2958, z 2955 ⊹ z 538 ⊛ z 2860 ⊹ z 544 ⊛ z 2956 ⊹ z 547 ⊛ z 2957 ⊹ z 888 ⊛ z 1501 ⊹ if22 ⊛ z 83 ⊛
    z 549 ⊛ z 1264 ⊝ z 541 ⊛ z 2863 ⊝ z 887 ⊛ z 1313 ⊝ z 918 ⊛ z 1549 ⊝ z 926 ⊛ z 1580 ⊝ z 935 ⊛ z
    1640),
(2959, z 2958 ⊹ z 538 ⊛ z 2861 ⊹ z 544 ⊛ z 2752 ⊹ z 547 ⊛ z 2856 ⊹ z 549 ⊛ z 2858 ⊹ z 947 ⊛ z 1501
    ⊝ z 541 ⊛ z 2864 ⊝ z 940 ⊛ z 1549 ⊝ z 941 ⊛ z 1580 ⊝ z 944 ⊛ z 1640 ⊝ z 946 ⊛ z 1313),
(2960, z 542 ⊛ z 2863 ⊹ z 888 ⊛ z 1495 ⊹ id22 ⊛ z 53 ⊛ z 1263 ⊝ z 539 ⊛ z 2860 ⊝ z 545 ⊛ z 2956 ⊝
    z 887 ⊛ z 1314 ⊝ z 918 ⊛ z 1550 ⊝ z 935 ⊛ z 1642 ⊝ if22 ⊛ z 83 ⊛ z 550 ⊛ z 1264),
(2961, z 2960 ⊹ z 538 ⊛ z 2558 ⊹ z 544 ⊛ z 2566 ⊹ z 547 ⊛ z 2598 ⊹ z 549 ⊛ z 2567 ⊹ z 958 ⊛ z 1501
    ⊝ z 541 ⊛ z 2555 ⊝ z 954 ⊛ z 1580 ⊝ z 955 ⊛ z 1549 ⊝ z 957 ⊛ z 1313 ⊝ z 961 ⊛ z 1640),
(2962, z 949 ⊛ z 2568 ⊹ z 964 ⊛ z 2959 ⊝ z 950 ⊛ z 2961 ⊝ z 963 ⊛ z 2888),
(2963, z 905 ⊛ z 2596 ⊝ z 973 ⊛ z 2549 ⊝ z 983 ⊛ z 2571),
(2964, z 949 ⊛ z 2572 ⊹ z 960 ⊛ z 2959 ⊝ z 945 ⊛ z 2961 ⊝ z 963 ⊛ z 2890),
(2965, z 978 ⊛ z 2549 ⊹ z 983 ⊛ z 2586 ⊝ z 979 ⊛ z 2601 ⊝ z 982 ⊛ z 2596),
(2966, z 804 ⊛ z 1317 ⊹ z 820 ⊛ z 1317 ⊹ z 835 ⊛ z 1320 ⊹ z 846 ⊛ z 1319 ⊹ n 2 ⊛ z 809 ⊛ z 1316 ⊹
    n 2 ⊛ z 825 ⊛ z 1316 ⊹ ie11 ⊛ z 75 ⊛ z 1271 ⊹ ie31 ⊛ z 75 ⊛ z 1270 ⊹ ie31 ⊛ z 79 ⊛ z 1271 ⊹
    ie33 ⊛ z 79 ⊛ z 1270 ⊹ if11 ⊛ z 93 ⊛ z 1274 ⊹ if11 ⊛ z 96 ⊛ z 1273 ⊹ me ⊛ z 161 ⊛ (z 2733 ⊹ z
    9 ⊛ z 1267) ⊹ me ⊛ z 2574 ⊛ (z 162 ⊹ z 9 ⊛ z 147) ⊹ mf ⊛ z 150 ⊛ (z 1272 ⊹ z 9 ⊛ z 1267) ⊹ mf
    ⊛ z 1318 ⊛ (z 151 ⊹ z 9 ⊛ z 147)),
(2967, z 2966 ⊹ z 543 ⊛ z 2863 ⊹ z 548 ⊛ z 2957 ⊹ z 887 ⊛ z 1324 ⊹ z 918 ⊛ z 1551 ⊹ if22 ⊛ z 83 ⊛
    z 551 ⊛ z 1264 ⊝ z 540 ⊛ z 2860 ⊝ z 546 ⊛ z 2956 ⊝ z 888 ⊛ z 1498 ⊝ z 926 ⊛ z 1581 ⊝ z 935 ⊛ z
    1641),
(2968, z 2967 ⊹ z 538 ⊛ z 2581 ⊹ z 544 ⊛ z 2584 ⊹ z 547 ⊛ z 2595 ⊹ z 549 ⊛ z 2585 ⊹ z 972 ⊛ z 1501
    ⊝ z 541 ⊛ z 2578 ⊝ z 967 ⊛ z 1580 ⊝ z 970 ⊛ z 1549 ⊝ z 971 ⊛ z 1313 ⊝ z 975 ⊛ z 1640),
(2969, ig22 ⊛ z 99 ⊛ z 2693 ⊹ ig31 ⊛ z 98 ⊛ z 2696 ⊹ mg ⊛ (z 205 ⊛ (z 2707 ⊹ l6 ⊛ z 2693) ⊝ z 200
    ⊛ (z 2716 ⊹ z 2718) ⊝ z 201 ⊛ (z 2724 ⊝ l5 ⊛ z 2693)) ⊝ ig11 ⊛ z 98 ⊛ z 2685),
(2970, z 2969 ⊹ z 541 ⊛ z 2526 ⊹ z 544 ⊛ z 2548 ⊹ z 547 ⊛ z 2533 ⊹ z 907 ⊛ z 1501 ⊝ z 538 ⊛ z 2537
    ⊝ z 902 ⊛ z 1549 ⊝ z 903 ⊛ z 1580 ⊝ z 906 ⊛ z 1313),
(2971, z 905 ⊛ z 2968 ⊝ z 973 ⊛ z 2970 ⊝ z 981 ⊛ z 2571),
(2972, z 977 ⊛ z 2601 ⊹ z 982 ⊛ z 2968 ⊝ z 978 ⊛ z 2970 ⊝ z 981 ⊛ z 2586),
(2973, z 949 ⊛ z 2599 ⊹ z 965 ⊛ z 2959 ⊝ z 951 ⊛ z 2961 ⊝ z 963 ⊛ z 2894),
(2974, z 905 ⊛ z 2586 ⊝ z 973 ⊛ z 2601 ⊝ z 982 ⊛ z 2571),
(2975, z 977 ⊛ z 2549 ⊹ z 983 ⊛ z 2968 ⊝ z 979 ⊛ z 2970 ⊝ z 981 ⊛ z 2596),
(2976, z 989 ⊛ z 2963 ⊹ z 990 ⊛ z 2962 ⊹ z 993 ⊛ z 2965 ⊹ z 994 ⊛ z 2964 ⊹ z 995 ⊛ z 2971 ⊹ z 996
    ⊛ z 2895 ⊹ z 999 ⊛ z 2972 ⊹ z 1000 ⊛ z 2896 ⊝ z 991 ⊛ z 2974 ⊝ z 992 ⊛ z 2973 ⊝ z 997 ⊛ z 2975
    ⊝ z 998 ⊛ z 2891),
(2977, (z 2976 ⊛ (z 1005 ⊛ z 985 ⊹ z 1022 ⊛ z 987 ⊝ z 1015 ⊛ z 986 ⊝ z 1026 ⊛ z 988) ⊝ z 1001 ⊛ (z
    2603 ⊛ z 985 ⊹ z 2897 ⊛ z 987 ⊹ z 1015 ⊛ (z 2946 ⊝ z 2927) ⊝ z 2924 ⊛ z 986 ⊝ z 2947 ⊛ z 988 ⊝
    z 1026 ⊛ (z 2950 ⊹ z 2949) ⊝ z 1005 ⊛ (z 2886 ⊝ z 2866) ⊝ z 1022 ⊛ (z 2920 ⊝ z 2900))) ⊘ pow
    (z 1001) 2),
(2978, z 903 ⊛ z 1585 ⊹ z 907 ⊛ z 1506 ⊝ z 902 ⊛ z 1556 ⊝ z 906 ⊛ z 1337),
(2979, z 910 ⊛ z 1336 ⊝ z 914 ⊛ z 1504 ⊝ z 916 ⊛ z 1555),
(2980, z 909 ⊛ z 1336 ⊝ z 910 ⊛ z 1504 ⊝ z 912 ⊛ z 1555),
(2981, z 43 ⊛ (z 58 ⊛ z 794 ⊹ z 785 ⊛ z 1328 ⊹ id11 ⊛ z 58 ⊛ z 64 ⊹ id11 ⊛ z 61 ⊛ z 1328)),
(2982, z 912 ⊛ z 1336 ⊹ z 936 ⊛ z 1650 ⊝ z 545 ⊛ z 2981 ⊝ z 916 ⊛ z 1504 ⊝ z 919 ⊛ z 1555),
(2983, z 937 ⊛ z 1650 ⊝ z 923 ⊛ z 1555),
(2984, z 542 ⊛ z 2979 ⊹ z 957 ⊛ z 1336 ⊹ z 961 ⊛ z 1650 ⊝ z 539 ⊛ z 2980 ⊝ z 545 ⊛ z 2982 ⊝ z 550
    ⊛ z 2983 ⊝ z 921 ⊛ z 1555 ⊝ z 955 ⊛ z 1555 ⊝ z 958 ⊛ z 1504),
(2985, z 907 ⊛ z 1506 ⊹ z 932 ⊛ z 1585 ⊝ z 906 ⊛ z 1337 ⊝ z 924 ⊛ z 1556),
(2986, z 906 ⊛ z 1336 ⊝ z 907 ⊛ z 1504 ⊝ z 924 ⊛ z 1555),
(2987, z 929 ⊛ z 1585 ⊝ z 921 ⊛ z 1556),
(2988, z 914 ⊛ z 1506 ⊹ z 915 ⊛ z 1585 ⊝ z 910 ⊛ z 1337 ⊝ z 916 ⊛ z 1556),
(2989, z 910 ⊛ z 1506 ⊹ z 911 ⊛ z 1585 ⊝ z 909 ⊛ z 1337 ⊝ z 912 ⊛ z 1556),
(2990, id11 ⊛ z 43 ⊛ z 58 ⊛ z 65 ⊝ z 7 ⊛ z 48 ⊛ z 785 ⊝ z 8 ⊛ z 48 ⊛ z 794 ⊝ id11 ⊛ z 43 ⊛ z 62 ⊛
    z 1328),
(2991, z 548 ⊛ z 2990 ⊹ z 916 ⊛ z 1506 ⊹ z 927 ⊛ z 1585 ⊹ z 936 ⊛ z 1649 ⊝ z 546 ⊛ z 2981 ⊝ z 912
    ⊛ z 1337 ⊝ z 919 ⊛ z 1556),
(2992, z 931 ⊛ z 1585 ⊹ z 937 ⊛ z 1649 ⊝ z 923 ⊛ z 1556),
(2993, z 2987 ⊹ z 542 ⊛ z 2988 ⊹ z 971 ⊛ z 1336 ⊹ z 975 ⊛ z 1650 ⊝ z 539 ⊛ z 2989 ⊝ z 545 ⊛ z 2991
    ⊝ z 550 ⊛ z 2992 ⊝ z 970 ⊛ z 1555 ⊝ z 972 ⊛ z 1504),
(2994, z 964 ⊛ z 2985 ⊹ z 973 ⊛ z 2984 ⊝ z 960 ⊛ z 2993 ⊝ z 978 ⊛ z 2986),
(2995, z 899 ⊛ z 1337 ⊹ z 900 ⊛ z 1506 ⊹ z 930 ⊛ z 1585 ⊝ z 922 ⊛ z 1556),
(2996, z 48 ⊛ (z 7 ⊛ z 786 ⊹ id11 ⊛ z 7 ⊛ z 62 ⊝ z 8 ⊛ z 795 ⊝ id11 ⊛ z 8 ⊛ z 65)),
(2997, z 43 ⊛ z 58 ⊛ z 795 ⊝ z 43 ⊛ z 786 ⊛ z 1328 ⊝ id11 ⊛ z 7 ⊛ z 48 ⊛ z 61 ⊝ id11 ⊛ z 8 ⊛ z 48
    ⊛ z 64),
(2998, z 548 ⊛ z 2996 ⊹ z 915 ⊛ z 1506 ⊹ z 928 ⊛ z 1585 ⊹ z 934 ⊛ z 1649 ⊝ z 546 ⊛ z 2997 ⊝ z 911
    ⊛ z 1337 ⊝ z 920 ⊛ z 1556),
(2999, z 2995 ⊹ z 543 ⊛ z 2988 ⊹ z 548 ⊛ z 2998 ⊹ z 551 ⊛ z 2992 ⊹ z 967 ⊛ z 1585 ⊹ z 972 ⊛ z 1506
    ⊹ z 975 ⊛ z 1649 ⊝ z 540 ⊛ z 2989 ⊝ z 546 ⊛ z 2991 ⊝ z 970 ⊛ z 1556 ⊝ z 971 ⊛ z 1337),
(3000, neg (z 899) ⊛ z 1336 ⊝ z 900 ⊛ z 1504 ⊝ z 922 ⊛ z 1555),
(3001, z 911 ⊛ z 1336 ⊹ z 934 ⊛ z 1650 ⊝ z 545 ⊛ z 2997 ⊝ z 915 ⊛ z 1504 ⊝ z 920 ⊛ z 1555),
(3002, z 3000 ⊹ z 543 ⊛ z 2979 ⊹ z 548 ⊛ z 3001 ⊹ z 551 ⊛ z 2983 ⊹ z 954 ⊛ z 1585 ⊹ z 958 ⊛ z 1506
    ⊹ z 961 ⊛ z 1649 ⊝ z 540 ⊛ z 2980 ⊝ z 546 ⊛ z 2982 ⊝ z 955 ⊛ z 1556 ⊝ z 957 ⊛ z 1337),
(3003, z 964 ⊛ z 2999 ⊹ z 979 ⊛ z 2984 ⊝ z 965 ⊛ z 2993 ⊝ z 978 ⊛ z 3002),
(3004, z 906 ⊛ z 1336 ⊝ z 902 ⊛ z 1555 ⊝ z 907 ⊛ z 1504),
(3005, z 965 ⊛ z 2985 ⊹ z 973 ⊛ z 3002 ⊝ z 960 ⊛ z 2999 ⊝ z 979 ⊛ z 2986),
(3006, z 983 ⊛ z 2994 ⊹ z 1003 ⊛ z 2978 ⊝ z 905 ⊛ z 3003 ⊝ z 982 ⊛ z 3005 ⊝ z 1004 ⊛ z 3004),
(3007, z 6 ⊛ (pow (z 3) 2 ⊹ pow (z 4) 2) ⊛ z 1586),
(3008, neg (z 3007) ⊛ q4p ⊝ z 3 ⊛ z 5 ⊛ z 43 ⊛ z 1586 ⊛ q3p ⊝ z 43 ⊛ z 1557 ⊛ z 271),
(3009, z 5 ⊛ (pow (z 3) 2 ⊹ pow (z 4) 2) ⊛ z 1586),
(3010, z 3009 ⊛ q4p ⊹ z 1586 ⊛ z 278 ⊹ z 43 ⊛ z 1557 ⊛ z 268 ⊝ z 3 ⊛ z 6 ⊛ z 43 ⊛ z 1586 ⊛ q3p)]

/-- _mooreriderlean2012.py:6332-6482 -/
def part54 : List (ℕ × E) := [
(3011, z 47 ⊛ z 1586 ⊹ z 51 ⊛ z 1557),
(3012, z 48 ⊛ z 1586 ⊹ z 52 ⊛ z 1557),
(3013, ic33 ⊛ z 3012 ⊝ ic31 ⊛ z 50 ⊛ z 1557),
(3014, z 3011 ⊛ z 758 ⊹ z 3013 ⊛ z 266 ⊝ z 3012 ⊛ z 759 ⊝ ic22 ⊛ z 3011 ⊛ z 267),
(3015, (z 3 ⊛ z 5 ⊛ z 31 ⊹ z 3 ⊛ z 6 ⊛ z 41 ⊝ z 4 ⊛ z 5 ⊛ z 32 ⊝ z 4 ⊛ z 6 ⊛ z 42) ⊛ z 1586),
(3016, z 5 ⊛ (z 6 ⊝ z 3 ⊛ z 42 ⊝ z 4 ⊛ z 41) ⊛ z 1586),
(3017, z 3015 ⊛ q4p ⊹ z 1557 ⊛ z 276 ⊹ z 1586 ⊛ z 275 ⊝ n 2 ⊛ z 3016 ⊛ q5p),
(3018, ic31 ⊛ z 3012 ⊝ ic11 ⊛ z 50 ⊛ z 1557),
(3019, z 3012 ⊛ z 757 ⊹ z 3018 ⊛ z 267 ⊹ z 50 ⊛ z 1557 ⊛ z 758 ⊝ z 3013 ⊛ z 265),
(3020, z 64 ⊛ z 1557 ⊹ z 65 ⊛ z 1586 ⊹ z 60 ⊛ q4p ⊹ z 43 ⊛ z 58 ⊛ q3p ⊝ z 8 ⊛ z 48 ⊛ q5p),
(3021, z 61 ⊛ z 1557 ⊹ z 1326 ⊛ q4p ⊹ z 43 ⊛ z 1328 ⊛ q3p ⊝ z 62 ⊛ z 1586 ⊝ z 7 ⊛ z 48 ⊛ q5p),
(3022, z 781 ⊛ z 3020 ⊹ id11 ⊛ z 283 ⊛ z 3021 ⊝ z 783 ⊛ z 3021 ⊝ id11 ⊛ z 281 ⊛ z 3020),
(3023, ic22 ⊛ z 3011 ⊛ z 265 ⊝ z 3011 ⊛ z 757 ⊝ z 3018 ⊛ z 266 ⊝ z 50 ⊛ z 1557 ⊛ z 759),
(3024, z 8 ⊛ z 49 ⊛ q6p ⊝ z 7 ⊛ z 3007 ⊝ z 8 ⊛ z 3009 ⊝ z 7 ⊛ z 45 ⊛ q6p ⊝ z 7 ⊛ z 279 ⊝ z 8 ⊛ z
    270),
(3025, z 3 ⊛ z 6 ⊛ z 8 ⊛ z 1586 ⊹ z 7 ⊛ z 42 ⊛ q6p ⊹ z 8 ⊛ z 32 ⊛ q6p ⊹ z 8 ⊛ z 271 ⊝ z 3 ⊛ z 5 ⊛
    z 7 ⊛ z 1586 ⊝ z 7 ⊛ z 268),
(3026, q4p ⊛ z 3024 ⊹ z 43 ⊛ z 1557 ⊛ z 285 ⊹ z 43 ⊛ q3p ⊛ z 3025 ⊝ z 1586 ⊛ z 286 ⊝ q5p ⊛ z 290),
(3027, z 3011 ⊛ z 783 ⊹ id11 ⊛ z 282 ⊛ z 3020 ⊝ z 782 ⊛ z 3020 ⊝ id22 ⊛ z 3011 ⊛ z 283),
(3028, z 7 ⊛ z 3009 ⊹ z 7 ⊛ z 270 ⊝ z 8 ⊛ z 3007 ⊝ z 7 ⊛ z 49 ⊛ q6p ⊝ z 8 ⊛ z 45 ⊛ q6p ⊝ z 8 ⊛ z
    279),
(3029, neg (z 7) ⊛ z 48 ⊛ q6p ⊝ z 8 ⊛ z 278),
(3030, z 8 ⊛ z 42 ⊛ q6p ⊝ z 3 ⊛ z 5 ⊛ z 8 ⊛ z 1586 ⊝ z 3 ⊛ z 6 ⊛ z 7 ⊛ z 1586 ⊝ z 7 ⊛ z 32 ⊛ q6p ⊝
    z 7 ⊛ z 271 ⊝ z 8 ⊛ z 268),
(3031, z 1586 ⊛ z 290 ⊹ q4p ⊛ z 3028 ⊹ q5p ⊛ z 3029 ⊹ z 43 ⊛ z 1557 ⊛ z 289 ⊹ z 43 ⊛ q3p ⊛ z 3030),
(3032, z 782 ⊛ z 3021 ⊹ id22 ⊛ z 3011 ⊛ z 281 ⊝ z 3011 ⊛ z 781 ⊝ id11 ⊛ z 282 ⊛ z 3021),
(3033, z 4 ⊛ z 5 ⊛ z 10 ⊛ z 1586),
(3034, z 3 ⊛ z 5 ⊛ z 10 ⊛ z 1586),
(3035, z 31 ⊛ z 3034 ⊹ z 4 ⊛ z 6 ⊛ z 69 ⊛ z 1586 ⊝ z 32 ⊛ z 3033 ⊝ z 3 ⊛ z 6 ⊛ z 29 ⊛ z 1586),
(3036, z 4 ⊛ z 6 ⊛ z 10 ⊛ z 1586),
(3037, z 3 ⊛ z 6 ⊛ z 10 ⊛ z 1586),
(3038, z 5 ⊛ z 26 ⊛ z 1586 ⊹ z 5 ⊛ z 6 ⊛ z 10 ⊛ z 1586 ⊝ z 31 ⊛ z 3036 ⊝ z 32 ⊛ z 3037 ⊝ z 3 ⊛ z 6
    ⊛ z 72 ⊛ z 1586 ⊝ z 4 ⊛ z 6 ⊛ z 71 ⊛ z 1586),
(3039, z 3 ⊛ z 5 ⊛ z 9 ⊛ z 1586),
(3040, z 4 ⊛ z 5 ⊛ z 9 ⊛ z 1586),
(3041, z 31 ⊛ z 3040 ⊹ z 32 ⊛ z 3039 ⊹ z 4 ⊛ z 6 ⊛ z 70 ⊛ z 1586 ⊹ z 9 ⊛ pow (z 6) 2 ⊛ z 1586 ⊝ z
    5 ⊛ z 23 ⊛ z 1586 ⊝ z 3 ⊛ z 6 ⊛ z 66 ⊛ z 1586),
(3042, z 3035 ⊛ q4p ⊹ z 3038 ⊛ q5p ⊹ z 3041 ⊛ q7p ⊹ z 1586 ⊛ z 299 ⊹ z 43 ⊛ z 1557 ⊛ z 308 ⊝ z 43
    ⊛ z 3039 ⊛ q3p),
(3043, z 27 ⊛ z 3034 ⊹ z 29 ⊛ z 3039 ⊹ z 30 ⊛ z 3040 ⊝ z 66 ⊛ z 3033),
(3044, z 4 ⊛ z 6 ⊛ z 9 ⊛ z 1586),
(3045, z 3 ⊛ z 6 ⊛ z 9 ⊛ z 1586),
(3046, z 30 ⊛ z 3045 ⊹ z 5 ⊛ z 9 ⊛ z 25 ⊛ z 1586 ⊝ z 29 ⊛ z 3044 ⊝ z 67 ⊛ z 3033 ⊝ z 68 ⊛ z 3034 ⊝
    z 6 ⊛ z 10 ⊛ z 24 ⊛ z 1586),
(3047, n 2 ⊛ z 30 ⊛ z 3034 ⊝ n 2 ⊛ z 29 ⊛ z 3033 ⊝ n 2 ⊛ z 6 ⊛ z 10 ⊛ z 25 ⊛ z 1586),
(3048, z 3043 ⊛ q4p ⊹ z 3046 ⊛ q5p ⊹ z 3047 ⊛ q7p ⊹ z 1586 ⊛ z 317 ⊹ z 43 ⊛ z 1557 ⊛ z 268 ⊝ z 3 ⊛
    z 6 ⊛ z 43 ⊛ z 1586 ⊛ q3p),
(3049, z 76 ⊛ z 1586 ⊹ z 82 ⊛ z 1557),
(3050, z 73 ⊛ z 1586 ⊹ z 81 ⊛ z 1557),
(3051, z 52 ⊛ z 1557 ⊹ z 78 ⊛ z 1586),
(3052, ie31 ⊛ z 3050 ⊹ ie33 ⊛ z 3051),
(3053, z 3049 ⊛ z 801 ⊹ z 3052 ⊛ z 293 ⊝ z 3051 ⊛ z 802 ⊝ ie22 ⊛ z 3049 ⊛ z 294),
(3054, z 31 ⊛ z 3039 ⊹ z 3 ⊛ z 6 ⊛ z 27 ⊛ z 1586 ⊹ z 4 ⊛ z 6 ⊛ z 28 ⊛ z 1586 ⊝ z 32 ⊛ z 3040),
(3055, z 41 ⊛ z 3040 ⊹ z 42 ⊛ z 3039 ⊹ z 4 ⊛ z 5 ⊛ z 27 ⊛ z 1586 ⊝ z 6 ⊛ z 23 ⊛ z 1586 ⊝ z 3 ⊛ z 5
    ⊛ z 28 ⊛ z 1586 ⊝ z 5 ⊛ z 6 ⊛ z 9 ⊛ z 1586),
(3056, z 3054 ⊛ q4p ⊹ z 3055 ⊛ q5p ⊹ z 43 ⊛ z 3034 ⊛ q3p ⊹ z 1586 ⊛ z 311 ⊹ z 43 ⊛ z 1557 ⊛ z 313),
(3057, ie11 ⊛ z 3050 ⊹ ie31 ⊛ z 3051),
(3058, z 3051 ⊛ z 800 ⊹ z 3057 ⊛ z 294 ⊝ z 3050 ⊛ z 801 ⊝ z 3052 ⊛ z 292),
(3059, z 94 ⊛ z 1557 ⊹ z 95 ⊛ z 1586),
(3060, z 90 ⊛ z 1557 ⊹ z 91 ⊛ z 1586),
(3061, z 3059 ⊛ z 830 ⊹ if11 ⊛ z 3060 ⊛ z 323 ⊝ z 3060 ⊛ z 832 ⊝ if11 ⊛ z 3059 ⊛ z 321),
(3062, z 3050 ⊛ z 802 ⊹ ie22 ⊛ z 3049 ⊛ z 292 ⊝ z 3049 ⊛ z 800 ⊝ z 3057 ⊛ z 293),
(3063, z 11 ⊛ z 3035 ⊝ z 12 ⊛ z 3043 ⊝ z 11 ⊛ z 80 ⊛ z 1651 ⊝ z 12 ⊛ z 74 ⊛ z 1651),
(3064, z 11 ⊛ z 3038 ⊝ z 12 ⊛ z 3046 ⊝ z 11 ⊛ z 78 ⊛ z 1651 ⊝ z 12 ⊛ z 73 ⊛ z 1651),
(3065, z 11 ⊛ z 3041 ⊝ z 12 ⊛ z 3047 ⊝ z 11 ⊛ z 79 ⊛ z 1651 ⊝ z 12 ⊛ z 75 ⊛ z 1651),
(3066, z 3 ⊛ z 6 ⊛ z 12 ⊛ z 1586 ⊝ z 11 ⊛ z 3039 ⊝ z 11 ⊛ z 32 ⊛ z 1651 ⊝ z 12 ⊛ z 28 ⊛ z 1651),
(3067, z 3063 ⊛ q4p ⊹ z 3064 ⊛ q5p ⊹ z 3065 ⊛ q7p ⊹ z 43 ⊛ z 3066 ⊛ q3p ⊹ z 1586 ⊛ z 325 ⊹ z 43 ⊛
    z 1557 ⊛ z 324),
(3068, z 76 ⊛ z 1586 ⊹ z 82 ⊛ z 1557 ⊹ z 83 ⊛ z 1651),
(3069, z 3068 ⊛ z 832 ⊹ if11 ⊛ z 3059 ⊛ z 322 ⊝ z 3059 ⊛ z 831 ⊝ if22 ⊛ z 3068 ⊛ z 323),
(3070, z 11 ⊛ z 3043 ⊹ z 12 ⊛ z 3035 ⊹ z 11 ⊛ z 74 ⊛ z 1651 ⊝ z 12 ⊛ z 80 ⊛ z 1651),
(3071, z 11 ⊛ z 3046 ⊹ z 12 ⊛ z 3038 ⊹ z 11 ⊛ z 73 ⊛ z 1651 ⊝ z 12 ⊛ z 78 ⊛ z 1651),
(3072, z 11 ⊛ z 3047 ⊹ z 12 ⊛ z 3041 ⊹ z 11 ⊛ z 75 ⊛ z 1651 ⊝ z 12 ⊛ z 79 ⊛ z 1651),
(3073, z 11 ⊛ z 28 ⊛ z 1651 ⊝ z 12 ⊛ z 3039 ⊝ z 12 ⊛ z 32 ⊛ z 1651 ⊝ z 3 ⊛ z 6 ⊛ z 11 ⊛ z 1586),
(3074, z 3070 ⊛ q4p ⊹ z 3071 ⊛ q5p ⊹ z 3072 ⊛ q7p ⊹ z 43 ⊛ z 3073 ⊛ q3p ⊹ z 1586 ⊛ z 330 ⊹ z 43 ⊛
    z 1557 ⊛ z 329),
(3075, z 3060 ⊛ z 831 ⊹ if22 ⊛ z 3068 ⊛ z 321 ⊝ z 3068 ⊛ z 830 ⊝ if11 ⊛ z 3060 ⊛ z 322),
(3076, z 14 ⊛ z 3009 ⊝ z 13 ⊛ z 3007),
(3077, z 3 ⊛ (z 13 ⊛ z 5 ⊹ z 14 ⊛ z 6) ⊛ z 1586),
(3078, z 3076 ⊛ q4p ⊹ z 14 ⊛ z 1586 ⊛ z 278 ⊹ z 43 ⊛ z 1557 ⊛ z 341 ⊝ z 43 ⊛ z 3077 ⊛ q3p),
(3079, z 18 ⊛ z 3007 ⊹ z 20 ⊛ z 3009 ⊝ z 15 ⊛ z 3015),
(3080, z 3 ⊛ (z 5 ⊛ z 18 ⊝ z 6 ⊛ z 20) ⊛ z 1586),
(3081, z 3079 ⊛ q4p ⊹ z 43 ⊛ z 3080 ⊛ q3p ⊹ n 2 ⊛ z 15 ⊛ z 3016 ⊛ q5p ⊹ z 1586 ⊛ z 349 ⊹ z 43 ⊛ z
    1557 ⊛ z 348),
(3082, z 112 ⊛ z 1557 ⊹ z 114 ⊛ z 1586),
(3083, z 110 ⊛ z 1557 ⊹ z 111 ⊛ z 1586),
(3084, z 115 ⊛ z 1557 ⊹ z 116 ⊛ z 1586),
(3085, ig31 ⊛ z 3083 ⊹ ig33 ⊛ z 3084),
(3086, z 3082 ⊛ z 852 ⊹ z 3085 ⊛ z 335 ⊝ z 3084 ⊛ z 853 ⊝ ig22 ⊛ z 3082 ⊛ z 336),
(3087, z 16 ⊛ z 3007 ⊹ z 17 ⊛ z 3015 ⊹ z 19 ⊛ z 3009),
(3088, z 3 ⊛ (z 5 ⊛ z 16 ⊝ z 6 ⊛ z 19) ⊛ z 1586),
(3089, z 3087 ⊛ q4p ⊹ z 43 ⊛ z 3088 ⊛ q3p ⊹ z 1586 ⊛ z 346 ⊹ z 43 ⊛ z 1557 ⊛ z 344 ⊝ n 2 ⊛ z 17 ⊛
    z 3016 ⊛ q5p),
(3090, ig11 ⊛ z 3083 ⊹ ig31 ⊛ z 3084),
(3091, z 3084 ⊛ z 851 ⊹ z 3090 ⊛ z 336 ⊝ z 3083 ⊛ z 852 ⊝ z 3085 ⊛ z 334),
(3092, z 3083 ⊛ z 853 ⊹ ig22 ⊛ z 3082 ⊛ z 334 ⊝ z 3082 ⊛ z 851 ⊝ z 3090 ⊛ z 335),
(3093, z 1557 ⊛ (z 354 ⊹ z 3 ⊛ z 43 ⊛ z 353)),
(3094, z 1557 ⊛ (z 43 ⊛ z 352 ⊹ z 118 ⊛ z 356)),
(3095, neg (z 5) ⊛ z 3093 ⊝ z 41 ⊛ z 3094),
(3096, z 3011 ⊛ (z 173 ⊛ q4p ⊹ z 174 ⊛ q5p ⊹ z 175 ⊛ q3p) ⊹ z 3095 ⊹ z 22 ⊛ z 3017 ⊹ (z 174 ⊛ z
    1586 ⊹ z 175 ⊛ z 1557) ⊛ z 266 ⊝ z 3012 ⊛ (z 170 ⊛ q4p ⊹ z 171 ⊛ q3p ⊝ z 172 ⊛ q5p) ⊝ (z 171 ⊛
    z 1557 ⊝ z 172 ⊛ z 1586) ⊛ z 267),
(3097, z 31 ⊛ z 3094 ⊝ z 6 ⊛ z 3093),
(3098, z 3097 ⊹ z 21 ⊛ z 3017 ⊹ (z 171 ⊛ z 1557 ⊝ z 172 ⊛ z 1586) ⊛ z 265 ⊝ z 3011 ⊛ (z 176 ⊛ q4p
    ⊹ z 177 ⊛ q5p ⊹ z 178 ⊛ q3p) ⊝ z 50 ⊛ z 1557 ⊛ (z 170 ⊛ q4p ⊹ z 171 ⊛ q3p ⊝ z 172 ⊛ q5p) ⊝ (z
    177 ⊛ z 1586 ⊹ z 178 ⊛ z 1557) ⊛ z 266),
(3099, z 13 ⊛ z 3096 ⊹ z 14 ⊛ z 3098),
(3100, z 3099 ⊹ l6 ⊛ z 3089 ⊝ z 3082 ⊛ (z 201 ⊛ q9p ⊹ z 202 ⊛ q3p ⊹ z 203 ⊛ q4p ⊹ z 204 ⊛ q5p) ⊝ z
    3084 ⊛ (z 197 ⊛ q3p ⊹ z 198 ⊛ q5p ⊹ z 199 ⊛ q4p ⊝ z 200 ⊛ q9p) ⊝ (z 197 ⊛ z 1557 ⊹ z 198 ⊛ z
    1586) ⊛ z 336 ⊝ (z 202 ⊛ z 1557 ⊹ z 204 ⊛ z 1586) ⊛ z 335),
(3101, neg (z 21) ⊛ z 3010 ⊝ z 22 ⊛ z 3008),
(3102, z 3012 ⊛ (z 176 ⊛ q4p ⊹ z 177 ⊛ q5p ⊹ z 178 ⊛ q3p) ⊹ z 50 ⊛ z 1557 ⊛ (z 173 ⊛ q4p ⊹ z 174 ⊛
    q5p ⊹ z 175 ⊛ q3p) ⊹ z 3101 ⊹ (z 177 ⊛ z 1586 ⊹ z 178 ⊛ z 1557) ⊛ z 267 ⊝ z 3 ⊛ z 3094 ⊝ (z
    174 ⊛ z 1586 ⊹ z 175 ⊛ z 1557) ⊛ z 265),
(3103, z 17 ⊛ z 3102 ⊹ z 19 ⊛ z 3098 ⊝ z 16 ⊛ z 3096),
(3104, l5 ⊛ z 3081 ⊝ l6 ⊛ z 3078),
(3105, z 3083 ⊛ (z 201 ⊛ q9p ⊹ z 202 ⊛ q3p ⊹ z 203 ⊛ q4p ⊹ z 204 ⊛ q5p) ⊹ z 3084 ⊛ (z 205 ⊛ q9p ⊹
    z 206 ⊛ q3p ⊹ z 207 ⊛ q4p ⊹ z 208 ⊛ q5p) ⊹ z 3103 ⊹ z 3104 ⊹ (z 202 ⊛ z 1557 ⊹ z 204 ⊛ z 1586)
    ⊛ z 334 ⊹ (z 206 ⊛ z 1557 ⊹ z 208 ⊛ z 1586) ⊛ z 336),
(3106, z 20 ⊛ z 3098 ⊝ z 15 ⊛ z 3102 ⊝ z 18 ⊛ z 3096)]

/-- _mooreriderlean2012.py:6483-6569 -/
def part55 : List (ℕ × E) := [
(3107, z 3083 ⊛ (z 197 ⊛ q3p ⊹ z 198 ⊛ q5p ⊹ z 199 ⊛ q4p ⊝ z 200 ⊛ q9p) ⊹ z 3106 ⊹ (z 197 ⊛ z 1557
    ⊹ z 198 ⊛ z 1586) ⊛ z 334 ⊝ z 3082 ⊛ (z 205 ⊛ q9p ⊹ z 206 ⊛ q3p ⊹ z 207 ⊛ q4p ⊹ z 208 ⊛ q5p) ⊝
    l5 ⊛ z 3089 ⊝ (z 206 ⊛ z 1557 ⊹ z 208 ⊛ z 1586) ⊛ z 335),
(3108, z 3097 ⊹ (z 128 ⊛ z 1586 ⊹ z 130 ⊛ z 1557) ⊛ z 265 ⊝ z 3011 ⊛ (z 134 ⊛ q4p ⊹ z 135 ⊛ q5p ⊹
    z 136 ⊛ q3p) ⊝ z 50 ⊛ z 1557 ⊛ (z 128 ⊛ q5p ⊹ z 129 ⊛ q4p ⊹ z 130 ⊛ q3p) ⊝ l1 ⊛ z 3017 ⊝ (z
    135 ⊛ z 1586 ⊹ z 136 ⊛ z 1557) ⊛ z 266),
(3109, z 3095 ⊹ l2 ⊛ z 3017 ⊝ z 3011 ⊛ (z 131 ⊛ q4p ⊹ z 132 ⊛ q5p ⊹ z 133 ⊛ q3p) ⊝ z 3012 ⊛ (z 128
    ⊛ q5p ⊹ z 129 ⊛ q4p ⊹ z 130 ⊛ q3p) ⊝ (z 128 ⊛ z 1586 ⊹ z 130 ⊛ z 1557) ⊛ z 267 ⊝ (z 132 ⊛ z
    1586 ⊹ z 133 ⊛ z 1557) ⊛ z 266),
(3110, l1 ⊛ z 3010 ⊝ l2 ⊛ z 3008),
(3111, z 3012 ⊛ (z 134 ⊛ q4p ⊹ z 135 ⊛ q5p ⊹ z 136 ⊛ q3p) ⊹ z 3110 ⊹ (z 132 ⊛ z 1586 ⊹ z 133 ⊛ z
    1557) ⊛ z 265 ⊹ (z 135 ⊛ z 1586 ⊹ z 136 ⊛ z 1557) ⊛ z 267 ⊝ z 50 ⊛ z 1557 ⊛ (z 131 ⊛ q4p ⊹ z
    132 ⊛ q5p ⊹ z 133 ⊛ q3p) ⊝ z 3 ⊛ z 3094),
(3112, z 3097 ⊹ (z 143 ⊛ z 1586 ⊹ z 145 ⊛ z 1557) ⊛ z 265 ⊝ z 50 ⊛ z 1557 ⊛ (z 143 ⊛ q5p ⊹ z 144 ⊛
    q4p ⊹ z 145 ⊛ q3p) ⊝ d1 ⊛ z 3017),
(3113, z 3050 ⊛ (z 159 ⊛ q3p ⊹ z 160 ⊛ q5p ⊹ z 161 ⊛ q7p ⊹ z 162 ⊛ q4p) ⊹ (z 159 ⊛ z 1557 ⊹ z 160
    ⊛ z 1586) ⊛ z 292 ⊝ z 3049 ⊛ (z 164 ⊛ q5p ⊹ z 165 ⊛ q4p ⊹ z 166 ⊛ q3p) ⊝ z 158 ⊛ z 3056 ⊝ (z
    164 ⊛ z 1586 ⊹ z 166 ⊛ z 1557) ⊛ z 293),
(3114, z 3095 ⊝ z 3011 ⊛ (z 140 ⊛ q4p ⊹ z 141 ⊛ q5p ⊹ z 142 ⊛ q3p) ⊝ z 3012 ⊛ (z 143 ⊛ q5p ⊹ z 144
    ⊛ q4p ⊹ z 145 ⊛ q3p) ⊝ (z 141 ⊛ z 1586 ⊹ z 142 ⊛ z 1557) ⊛ z 266 ⊝ (z 143 ⊛ z 1586 ⊹ z 145 ⊛ z
    1557) ⊛ z 267),
(3115, d1 ⊛ z 3010 ⊹ (z 141 ⊛ z 1586 ⊹ z 142 ⊛ z 1557) ⊛ z 265 ⊝ z 50 ⊛ z 1557 ⊛ (z 140 ⊛ q4p ⊹ z
    141 ⊛ q5p ⊹ z 142 ⊛ q3p) ⊝ z 3 ⊛ z 3094),
(3116, z 158 ⊛ z 3048 ⊝ d2 ⊛ z 3042 ⊝ l4 ⊛ z 3042),
(3117, z 3050 ⊛ (z 167 ⊛ q5p ⊹ z 168 ⊛ q4p ⊹ z 169 ⊛ q3p) ⊹ z 3051 ⊛ (z 164 ⊛ q5p ⊹ z 165 ⊛ q4p ⊹
    z 166 ⊛ q3p) ⊹ z 3116 ⊹ (z 164 ⊛ z 1586 ⊹ z 166 ⊛ z 1557) ⊛ z 294 ⊹ (z 167 ⊛ z 1586 ⊹ z 169 ⊛
    z 1557) ⊛ z 292),
(3118, z 163 ⊛ z 3056 ⊝ z 3049 ⊛ (z 167 ⊛ q5p ⊹ z 168 ⊛ q4p ⊹ z 169 ⊛ q3p) ⊝ z 3051 ⊛ (z 159 ⊛ q3p
    ⊹ z 160 ⊛ q5p ⊹ z 161 ⊛ q7p ⊹ z 162 ⊛ q4p) ⊝ (z 159 ⊛ z 1557 ⊹ z 160 ⊛ z 1586) ⊛ z 294 ⊝ (z
    167 ⊛ z 1586 ⊹ z 169 ⊛ z 1557) ⊛ z 293),
(3119, z 3050 ⊛ (z 148 ⊛ q3p ⊹ z 149 ⊛ q5p ⊹ z 150 ⊛ q7p ⊹ z 151 ⊛ q4p) ⊹ (z 148 ⊛ z 1557 ⊹ z 149
    ⊛ z 1586) ⊛ z 292 ⊝ z 3049 ⊛ (z 152 ⊛ q5p ⊹ z 153 ⊛ q4p ⊹ z 154 ⊛ q3p) ⊝ d3 ⊛ z 3056 ⊝ (z 152
    ⊛ z 1586 ⊹ z 154 ⊛ z 1557) ⊛ z 293),
(3120, d3 ⊛ z 3048 ⊝ d2 ⊛ z 3042),
(3121, z 3050 ⊛ (z 155 ⊛ q5p ⊹ z 156 ⊛ q4p ⊹ z 157 ⊛ q3p) ⊹ z 3051 ⊛ (z 152 ⊛ q5p ⊹ z 153 ⊛ q4p ⊹
    z 154 ⊛ q3p) ⊹ z 3120 ⊹ (z 152 ⊛ z 1586 ⊹ z 154 ⊛ z 1557) ⊛ z 294 ⊹ (z 155 ⊛ z 1586 ⊹ z 157 ⊛
    z 1557) ⊛ z 292),
(3122, d2 ⊛ z 3056 ⊝ z 3049 ⊛ (z 155 ⊛ q5p ⊹ z 156 ⊛ q4p ⊹ z 157 ⊛ q3p) ⊝ z 3051 ⊛ (z 148 ⊛ q3p ⊹
    z 149 ⊛ q5p ⊹ z 150 ⊛ q7p ⊹ z 151 ⊛ q4p) ⊝ (z 148 ⊛ z 1557 ⊹ z 149 ⊛ z 1586) ⊛ z 294 ⊝ (z 155
    ⊛ z 1586 ⊹ z 157 ⊛ z 1557) ⊛ z 293),
(3123, z 45 ⊛ z 3014 ⊹ z 46 ⊛ z 3019 ⊹ z 46 ⊛ z 3022 ⊹ z 49 ⊛ z 3023 ⊹ z 60 ⊛ z 796 ⊹ z 60 ⊛ z 797
    ⊹ z 60 ⊛ z 3027 ⊹ z 63 ⊛ z 3032 ⊹ z 74 ⊛ z 3053 ⊹ z 77 ⊛ z 3058 ⊹ z 77 ⊛ z 3061 ⊹ z 80 ⊛ z
    3062 ⊹ z 92 ⊛ z 3069 ⊹ z 97 ⊛ z 3075 ⊹ z 109 ⊛ z 3086 ⊹ z 113 ⊛ z 3091 ⊹ z 117 ⊛ z 3092 ⊹ z
    1326 ⊛ z 787 ⊹ z 1326 ⊛ z 799 ⊹ ic11 ⊛ z 45 ⊛ z 3008 ⊹ ic22 ⊛ z 46 ⊛ z 3017 ⊹ ic31 ⊛ z 45 ⊛ z
    3010 ⊹ ic31 ⊛ z 49 ⊛ z 3008 ⊹ ic33 ⊛ z 49 ⊛ z 3010 ⊹ id11 ⊛ z 60 ⊛ z 3026 ⊹ id11 ⊛ z 63 ⊛ z
    3031 ⊹ id22 ⊛ z 46 ⊛ z 3017 ⊹ ie11 ⊛ z 74 ⊛ z 3042 ⊹ ie22 ⊛ z 77 ⊛ z 3056 ⊹ ie31 ⊛ z 74 ⊛ z
    3048 ⊹ ie31 ⊛ z 80 ⊛ z 3042 ⊹ ie33 ⊛ z 80 ⊛ z 3048 ⊹ if11 ⊛ z 92 ⊛ z 3067 ⊹ if11 ⊛ z 97 ⊛ z
    3074 ⊹ if22 ⊛ z 77 ⊛ z 3056 ⊹ ig11 ⊛ z 109 ⊛ z 3078 ⊹ ig22 ⊛ z 113 ⊛ z 3089 ⊹ ig31 ⊛ z 109 ⊛ z
    3081 ⊹ ig31 ⊛ z 117 ⊛ z 3078 ⊹ ig33 ⊛ z 117 ⊛ z 3081 ⊹ mg ⊛ (z 209 ⊛ z 3100 ⊹ z 212 ⊛ z 3105 ⊹
    z 215 ⊛ z 3107) ⊝ md ⊛ z 3 ⊛ z 119 ⊛ z 3094 ⊝ mc ⊛ (z 131 ⊛ z 3108 ⊝ z 134 ⊛ z 3109 ⊝ z 139 ⊛
    z 3111) ⊝ me ⊛ (z 140 ⊛ z 3112 ⊹ z 140 ⊛ z 3113 ⊹ z 168 ⊛ z 3112 ⊹ z 168 ⊛ z 3113 ⊹ z 10 ⊛ z
    162 ⊛ z 3114 ⊝ z 147 ⊛ z 3115 ⊝ z 162 ⊛ z 3117 ⊝ z 165 ⊛ z 3118 ⊝ z 9 ⊛ z 147 ⊛ z 3117 ⊝ z 9 ⊛
    z 162 ⊛ z 3115 ⊝ z 9 ⊛ z 165 ⊛ z 3114 ⊝ z 10 ⊛ z 147 ⊛ z 3118 ⊝ z 10 ⊛ z 165 ⊛ z 3115) ⊝ mf ⊛
    (z 140 ⊛ z 3112 ⊹ z 140 ⊛ z 3119 ⊹ z 156 ⊛ z 3112 ⊹ z 156 ⊛ z 3119 ⊹ z 10 ⊛ z 151 ⊛ z 3114 ⊝ z
    147 ⊛ z 3115 ⊝ z 151 ⊛ z 3121 ⊝ z 153 ⊛ z 3122 ⊝ z 9 ⊛ z 147 ⊛ z 3121 ⊝ z 9 ⊛ z 151 ⊛ z 3115 ⊝
    z 9 ⊛ z 153 ⊛ z 3114 ⊝ z 10 ⊛ z 147 ⊛ z 3122 ⊝ z 10 ⊛ z 153 ⊛ z 3115)),
(3124, mg ⊛ (z 182 ⊛ z 3100 ⊹ z 187 ⊛ z 3105 ⊹ z 192 ⊛ z 3107) ⊹ me ⊛ (z 120 ⊛ z 3114 ⊹ z 122 ⊛ z
    3112 ⊹ z 122 ⊛ z 3113 ⊹ z 9 ⊛ z 120 ⊛ z 3118 ⊝ z 121 ⊛ z 3115 ⊝ z 9 ⊛ z 121 ⊛ z 3117 ⊝ z 10 ⊛
    z 120 ⊛ z 3117 ⊝ z 10 ⊛ z 121 ⊛ z 3118) ⊹ mf ⊛ (z 120 ⊛ z 3114 ⊹ z 122 ⊛ z 3112 ⊹ z 122 ⊛ z
    3119 ⊹ z 9 ⊛ z 120 ⊛ z 3122 ⊝ z 121 ⊛ z 3115 ⊝ z 9 ⊛ z 121 ⊛ z 3121 ⊝ z 10 ⊛ z 120 ⊛ z 3121 ⊝
    z 10 ⊛ z 121 ⊛ z 3122) ⊝ md ⊛ (z 1 ⊛ z 3093 ⊝ z 2 ⊛ z 3094) ⊝ mc ⊛ (z 121 ⊛ z 3111 ⊝ z 120 ⊛ z
    3109 ⊝ z 122 ⊛ z 3108)),
(3125, z 51 ⊛ z 3019 ⊹ z 51 ⊛ z 3022 ⊹ z 52 ⊛ z 3023 ⊹ z 52 ⊛ z 3062 ⊹ z 61 ⊛ z 3027 ⊹ z 64 ⊛ z
    3032 ⊹ z 81 ⊛ z 3053 ⊹ z 82 ⊛ z 3058 ⊹ z 82 ⊛ z 3061 ⊹ z 90 ⊛ z 3069 ⊹ z 94 ⊛ z 3075 ⊹ z 110 ⊛
    z 3086 ⊹ z 112 ⊛ z 3091 ⊹ z 115 ⊛ z 3092 ⊹ ic22 ⊛ z 51 ⊛ z 3017 ⊹ ic31 ⊛ z 52 ⊛ z 3008 ⊹ ic33
    ⊛ z 52 ⊛ z 3010 ⊹ id11 ⊛ z 61 ⊛ z 3026 ⊹ id11 ⊛ z 64 ⊛ z 3031 ⊹ id22 ⊛ z 51 ⊛ z 3017 ⊹ ie11 ⊛
    z 81 ⊛ z 3042 ⊹ ie22 ⊛ z 82 ⊛ z 3056 ⊹ ie31 ⊛ z 52 ⊛ z 3042 ⊹ ie31 ⊛ z 81 ⊛ z 3048 ⊹ ie33 ⊛ z
    52 ⊛ z 3048 ⊹ if11 ⊛ z 90 ⊛ z 3067 ⊹ if11 ⊛ z 94 ⊛ z 3074 ⊹ if22 ⊛ z 82 ⊛ z 3056 ⊹ ig11 ⊛ z
    110 ⊛ z 3078 ⊹ ig22 ⊛ z 112 ⊛ z 3089 ⊹ ig31 ⊛ z 110 ⊛ z 3081 ⊹ ig31 ⊛ z 115 ⊛ z 3078 ⊹ ig33 ⊛
    z 115 ⊛ z 3081 ⊹ md ⊛ z 118 ⊛ z 3093 ⊹ z 43 ⊛ z 58 ⊛ z 796 ⊹ z 43 ⊛ z 58 ⊛ z 797 ⊹ z 43 ⊛ z
    1328 ⊛ z 787 ⊹ z 43 ⊛ z 1328 ⊛ z 799 ⊹ mc ⊛ (z 130 ⊛ z 3111 ⊹ z 137 ⊛ z 3109 ⊹ z 138 ⊛ z 3108)
    ⊹ mg ⊛ (z 211 ⊛ z 3100 ⊹ z 214 ⊛ z 3105 ⊹ z 217 ⊛ z 3107) ⊝ z 50 ⊛ z 3014 ⊝ ic11 ⊛ z 50 ⊛ z
    3008 ⊝ ic31 ⊛ z 50 ⊛ z 3010 ⊝ me ⊛ (z 126 ⊛ z 3114 ⊹ z 169 ⊛ z 3112 ⊹ z 169 ⊛ z 3113 ⊹ z 9 ⊛ z
    126 ⊛ z 3118 ⊹ z 10 ⊛ z 159 ⊛ z 3114 ⊝ z 145 ⊛ z 3115 ⊝ z 146 ⊛ z 3112 ⊝ z 146 ⊛ z 3113 ⊝ z
    159 ⊛ z 3117 ⊝ z 166 ⊛ z 3118 ⊝ z 9 ⊛ z 145 ⊛ z 3117 ⊝ z 9 ⊛ z 159 ⊛ z 3115 ⊝ z 9 ⊛ z 166 ⊛ z
    3114 ⊝ z 10 ⊛ z 126 ⊛ z 3117 ⊝ z 10 ⊛ z 145 ⊛ z 3118 ⊝ z 10 ⊛ z 166 ⊛ z 3115) ⊝ mf ⊛ (z 126 ⊛
    z 3114 ⊹ z 157 ⊛ z 3112 ⊹ z 157 ⊛ z 3119 ⊹ z 9 ⊛ z 126 ⊛ z 3122 ⊹ z 10 ⊛ z 148 ⊛ z 3114 ⊝ z
    145 ⊛ z 3115 ⊝ z 146 ⊛ z 3112 ⊝ z 146 ⊛ z 3119 ⊝ z 148 ⊛ z 3121 ⊝ z 154 ⊛ z 3122 ⊝ z 9 ⊛ z 145
    ⊛ z 3121 ⊝ z 9 ⊛ z 148 ⊛ z 3115 ⊝ z 9 ⊛ z 154 ⊛ z 3114 ⊝ z 10 ⊛ z 126 ⊛ z 3121 ⊝ z 10 ⊛ z 145
    ⊛ z 3122 ⊝ z 10 ⊛ z 154 ⊛ z 3115))]

/-- _mooreriderlean2012.py:6570-6685 -/
def part56 : List (ℕ × E) := [
(3126, z 47 ⊛ z 3019 ⊹ z 47 ⊛ z 3022 ⊹ z 48 ⊛ z 3023 ⊹ z 65 ⊛ z 3032 ⊹ z 73 ⊛ z 3053 ⊹ z 76 ⊛ z
    3058 ⊹ z 76 ⊛ z 3061 ⊹ z 78 ⊛ z 3062 ⊹ z 91 ⊛ z 3069 ⊹ z 95 ⊛ z 3075 ⊹ z 111 ⊛ z 3086 ⊹ z 114
    ⊛ z 3091 ⊹ z 116 ⊛ z 3092 ⊹ ic22 ⊛ z 47 ⊛ z 3017 ⊹ ic31 ⊛ z 48 ⊛ z 3008 ⊹ ic33 ⊛ z 48 ⊛ z 3010
    ⊹ id11 ⊛ z 65 ⊛ z 3031 ⊹ id22 ⊛ z 47 ⊛ z 3017 ⊹ ie11 ⊛ z 73 ⊛ z 3042 ⊹ ie22 ⊛ z 76 ⊛ z 3056 ⊹
    ie31 ⊛ z 73 ⊛ z 3048 ⊹ ie31 ⊛ z 78 ⊛ z 3042 ⊹ ie33 ⊛ z 78 ⊛ z 3048 ⊹ if11 ⊛ z 91 ⊛ z 3067 ⊹
    if11 ⊛ z 95 ⊛ z 3074 ⊹ if22 ⊛ z 76 ⊛ z 3056 ⊹ ig11 ⊛ z 111 ⊛ z 3078 ⊹ ig22 ⊛ z 114 ⊛ z 3089 ⊹
    ig31 ⊛ z 111 ⊛ z 3081 ⊹ ig31 ⊛ z 116 ⊛ z 3078 ⊹ ig33 ⊛ z 116 ⊛ z 3081 ⊹ mg ⊛ (z 210 ⊛ z 3100 ⊹
    z 213 ⊛ z 3105 ⊹ z 216 ⊛ z 3107) ⊝ z 62 ⊛ z 3027 ⊝ id11 ⊛ z 62 ⊛ z 3026 ⊝ z 7 ⊛ z 48 ⊛ z 787 ⊝
    z 7 ⊛ z 48 ⊛ z 799 ⊝ z 8 ⊛ z 48 ⊛ z 796 ⊝ z 8 ⊛ z 48 ⊛ z 797 ⊝ mc ⊛ (z 132 ⊛ z 3108 ⊝ z 128 ⊛
    z 3111 ⊝ z 135 ⊛ z 3109) ⊝ me ⊛ (z 141 ⊛ z 3112 ⊹ z 141 ⊛ z 3113 ⊹ z 167 ⊛ z 3112 ⊹ z 167 ⊛ z
    3113 ⊹ z 10 ⊛ z 160 ⊛ z 3114 ⊝ z 143 ⊛ z 3115 ⊝ z 160 ⊛ z 3117 ⊝ z 164 ⊛ z 3118 ⊝ z 9 ⊛ z 143
    ⊛ z 3117 ⊝ z 9 ⊛ z 160 ⊛ z 3115 ⊝ z 9 ⊛ z 164 ⊛ z 3114 ⊝ z 10 ⊛ z 143 ⊛ z 3118 ⊝ z 10 ⊛ z 164
    ⊛ z 3115) ⊝ mf ⊛ (z 141 ⊛ z 3112 ⊹ z 141 ⊛ z 3119 ⊹ z 155 ⊛ z 3112 ⊹ z 155 ⊛ z 3119 ⊹ z 10 ⊛ z
    149 ⊛ z 3114 ⊝ z 143 ⊛ z 3115 ⊝ z 149 ⊛ z 3121 ⊝ z 152 ⊛ z 3122 ⊝ z 9 ⊛ z 143 ⊛ z 3121 ⊝ z 9 ⊛
    z 149 ⊛ z 3115 ⊝ z 9 ⊛ z 152 ⊛ z 3114 ⊝ z 10 ⊛ z 143 ⊛ z 3122 ⊝ z 10 ⊛ z 152 ⊛ z 3115)),
(3127, z 83 ⊛ (z 3061 ⊹ if22 ⊛ z 3056)),
(3128, mc ⊛ (z 123 ⊛ z 3109 ⊹ z 124 ⊛ z 3111 ⊹ z 125 ⊛ z 3108) ⊹ mg ⊛ (z 183 ⊛ z 3100 ⊹ z 188 ⊛ z
    3105 ⊹ z 193 ⊛ z 3107) ⊝ md ⊛ (z 1 ⊛ z 3094 ⊹ z 2 ⊛ z 3093) ⊝ me ⊛ (z 10 ⊛ z 123 ⊛ z 3117 ⊝ z
    123 ⊛ z 3114 ⊝ z 124 ⊛ z 3115 ⊝ z 125 ⊛ z 3112 ⊝ z 125 ⊛ z 3113 ⊝ z 9 ⊛ z 123 ⊛ z 3118 ⊝ z 9 ⊛
    z 124 ⊛ z 3117 ⊝ z 10 ⊛ z 124 ⊛ z 3118) ⊝ mf ⊛ (z 10 ⊛ z 123 ⊛ z 3121 ⊝ z 123 ⊛ z 3114 ⊝ z 124
    ⊛ z 3115 ⊝ z 125 ⊛ z 3112 ⊝ z 125 ⊛ z 3119 ⊝ z 9 ⊛ z 123 ⊛ z 3122 ⊝ z 9 ⊛ z 124 ⊛ z 3121 ⊝ z
    10 ⊛ z 124 ⊛ z 3122)),
(3129, z 3123 ⊹ z 538 ⊛ z 3124 ⊹ z 544 ⊛ z 3125 ⊹ z 547 ⊛ z 3126 ⊹ z 549 ⊛ z 3127 ⊹ z 1335 ⊛ z 913
    ⊹ z 1584 ⊛ z 933 ⊹ z 1648 ⊛ z 938 ⊝ z 541 ⊛ z 3128 ⊝ z 1507 ⊛ z 917 ⊝ z 1554 ⊛ z 925),
(3130, z 60 ⊛ z 794 ⊹ z 785 ⊛ z 1326 ⊹ id11 ⊛ z 43 ⊛ z 58 ⊛ z 63 ⊹ id11 ⊛ z 43 ⊛ z 60 ⊛ z 1328),
(3131, z 3130 ⊹ z 544 ⊛ z 2981 ⊹ z 547 ⊛ z 2990 ⊹ z 912 ⊛ z 1335 ⊹ z 927 ⊛ z 1584 ⊹ z 936 ⊛ z 1648
    ⊝ z 916 ⊛ z 1507 ⊝ z 919 ⊛ z 1554),
(3132, z 1 ⊛ (pow (z 3) 2 ⊹ pow (z 4) 2) ⊛ z 1557),
(3133, z 2 ⊛ (pow (z 3) 2 ⊹ pow (z 4) 2) ⊛ z 1557),
(3134, z 6 ⊛ z 8 ⊛ q5p ⊹ z 6 ⊛ z 8 ⊛ q6p ⊝ z 5 ⊛ z 8 ⊛ z 1586 ⊝ z 6 ⊛ z 7 ⊛ z 1586 ⊝ z 5 ⊛ z 7 ⊛
    q5p ⊝ z 5 ⊛ z 7 ⊛ q6p),
(3135, z 5 ⊛ z 7 ⊛ z 1586 ⊝ z 6 ⊛ z 8 ⊛ z 1586 ⊝ z 5 ⊛ z 8 ⊛ q5p ⊝ z 5 ⊛ z 8 ⊛ q6p ⊝ z 6 ⊛ z 7 ⊛
    q5p ⊝ z 6 ⊛ z 7 ⊛ q6p),
(3136, rr ⊛ (z 54 ⊛ z 288 ⊹ z 54 ⊛ z 3024 ⊹ z 55 ⊛ z 3028 ⊹ z 60 ⊛ z 561 ⊹ z 60 ⊛ z 3134 ⊹ z 63 ⊛
    z 3135 ⊹ z 220 ⊛ z 284 ⊹ z 1326 ⊛ z 560)),
(3137, z 4 ⊛ z 1327 ⊛ q4p ⊝ z 3 ⊛ z 3136),
(3138, rr ⊛ (z 55 ⊛ z 3029 ⊹ z 65 ⊛ z 3135 ⊝ z 62 ⊛ z 3134 ⊝ z 220 ⊛ z 286 ⊝ z 7 ⊛ z 48 ⊛ z 560 ⊝
    z 8 ⊛ z 48 ⊛ z 561)),
(3139, z 4 ⊛ z 1331 ⊛ q4p ⊝ z 3 ⊛ z 3138),
(3140, rr ⊛ (z 61 ⊛ z 3134 ⊹ z 64 ⊛ z 3135 ⊹ z 43 ⊛ z 54 ⊛ z 289 ⊹ z 43 ⊛ z 54 ⊛ z 3025 ⊹ z 43 ⊛ z
    55 ⊛ z 3030 ⊹ z 43 ⊛ z 58 ⊛ z 561 ⊹ z 43 ⊛ z 220 ⊛ z 285 ⊹ z 43 ⊛ z 1328 ⊛ z 560)),
(3141, z 3 ⊛ z 3140 ⊝ z 4 ⊛ z 1329 ⊛ q4p),
(3142, u4 ⊛ z 3137 ⊹ u5 ⊛ z 3139 ⊹ z 1338 ⊛ z 556 ⊹ z 1508 ⊛ z 559 ⊹ z 1586 ⊛ z 565 ⊝ u1 ⊛ z 3132
    ⊝ u2 ⊛ z 3133 ⊝ u3 ⊛ z 3141 ⊝ z 1557 ⊛ z 563),
(3143, z 1 ⊛ z 5 ⊛ z 1586 ⊹ z 1 ⊛ z 31 ⊛ z 1557 ⊝ z 2 ⊛ z 6 ⊛ z 1557 ⊝ z 2 ⊛ z 4 ⊛ z 6 ⊛ z 1586),
(3144, neg (z 1) ⊛ z 6 ⊛ z 1586 ⊝ z 1 ⊛ z 41 ⊛ z 1557 ⊝ z 2 ⊛ z 5 ⊛ z 1557 ⊝ z 2 ⊛ z 4 ⊛ z 5 ⊛ z
    1586),
(3145, z 9 ⊛ z 3144 ⊝ z 1 ⊛ z 3 ⊛ z 10 ⊛ z 1557),
(3146, neg (z 10) ⊛ z 3144 ⊝ z 1 ⊛ z 3 ⊛ z 9 ⊛ z 1557),
(3147, z 6 ⊛ z 3143 ⊹ z 23 ⊛ z 3145 ⊹ z 5 ⊛ z 122 ⊛ z 1586 ⊹ z 6 ⊛ z 10 ⊛ z 238 ⊛ z 1586 ⊝ z 25 ⊛
    z 3146 ⊝ z 6 ⊛ z 9 ⊛ z 233 ⊛ z 1586),
(3148, z 1 ⊛ z 6 ⊛ z 1557 ⊹ z 2 ⊛ z 5 ⊛ z 1586 ⊹ z 2 ⊛ z 31 ⊛ z 1557 ⊹ z 1 ⊛ z 4 ⊛ z 6 ⊛ z 1586),
(3149, z 1 ⊛ z 5 ⊛ z 1557 ⊹ z 1 ⊛ z 4 ⊛ z 5 ⊛ z 1586 ⊝ z 2 ⊛ z 6 ⊛ z 1586 ⊝ z 2 ⊛ z 41 ⊛ z 1557),
(3150, z 9 ⊛ z 3149 ⊝ z 2 ⊛ z 3 ⊛ z 10 ⊛ z 1557),
(3151, neg (z 10) ⊛ z 3149 ⊝ z 2 ⊛ z 3 ⊛ z 9 ⊛ z 1557),
(3152, z 6 ⊛ z 3148 ⊹ z 23 ⊛ z 3150 ⊹ z 5 ⊛ z 125 ⊛ z 1586 ⊹ z 6 ⊛ z 10 ⊛ z 239 ⊛ z 1586 ⊝ z 25 ⊛
    z 3151 ⊝ z 6 ⊛ z 9 ⊛ z 234 ⊛ z 1586),
(3153, z 6 ⊛ z 3033 ⊝ z 5 ⊛ z 29 ⊛ z 1586 ⊝ z 4 ⊛ z 6 ⊛ z 25 ⊛ z 1586 ⊝ z 6 ⊛ z 10 ⊛ z 31 ⊛ z
    1586),
(3154, z 25 ⊛ z 3040 ⊝ z 23 ⊛ z 3033 ⊝ z 6 ⊛ z 9 ⊛ z 29 ⊛ z 1586 ⊝ z 6 ⊛ z 10 ⊛ z 27 ⊛ z 1586),
(3155, n 2 ⊛ z 33 ⊛ z 3153 ⊹ n 2 ⊛ z 34 ⊛ z 3154),
(3156, (n 2 ⊛ z 36 ⊛ z 3153 ⊝ z 33 ⊛ z 3155 ⊘ hpow (z 35) 1) ⊘ pow (z 36) 2),
(3157, z 39 ⊛ z 43 ⊛ z 3034 ⊹ qt 2 ⊛ rf ⊛ z 82 ⊛ z 3156),
(3158, neg (z 3157) ⊝ d3 ⊛ z 43 ⊛ z 3034 ⊝ z 5 ⊛ z 118 ⊛ z 1586),
(3159, d1 ⊛ z 3 ⊛ z 6 ⊛ z 43 ⊛ z 1586),
(3160, d2 ⊛ z 43 ⊛ z 3034 ⊹ z 6 ⊛ z 9 ⊛ z 118 ⊛ z 1586 ⊝ z 10 ⊛ z 3159),
(3161, (n 2 ⊛ z 36 ⊛ z 3154 ⊝ z 34 ⊛ z 3155 ⊘ hpow (z 35) 1) ⊘ pow (z 36) 2),
(3162, z 40 ⊛ z 43 ⊛ z 3034 ⊹ qt 2 ⊛ rf ⊛ z 82 ⊛ z 3161),
(3163, z 43 ⊛ (d2 ⊛ z 3039 ⊝ d3 ⊛ z 3 ⊛ z 6 ⊛ z 1586)),
(3164, z 3163 ⊝ z 9 ⊛ z 3159 ⊝ z 6 ⊛ z 10 ⊛ z 118 ⊛ z 1586),
(3165, z 11 ⊛ z 39 ⊛ z 43 ⊛ z 3073 ⊹ z 12 ⊛ z 40 ⊛ z 90 ⊛ z 1651 ⊹ qt 2 ⊛ rf ⊛ z 11 ⊛ z 94 ⊛ z
    3156 ⊝ z 11 ⊛ z 39 ⊛ z 90 ⊛ z 1651 ⊝ z 11 ⊛ z 40 ⊛ z 43 ⊛ z 3066 ⊝ z 11 ⊛ z 40 ⊛ z 94 ⊛ z 1651
    ⊝ z 12 ⊛ z 39 ⊛ z 43 ⊛ z 3066 ⊝ z 12 ⊛ z 39 ⊛ z 94 ⊛ z 1651 ⊝ z 12 ⊛ z 40 ⊛ z 43 ⊛ z 3073 ⊝ qt
    2 ⊛ rf ⊛ z 11 ⊛ z 90 ⊛ z 3161 ⊝ qt 2 ⊛ rf ⊛ z 12 ⊛ z 90 ⊛ z 3156 ⊝ qt 2 ⊛ rf ⊛ z 12 ⊛ z 94 ⊛ z
    3161),
(3166, z 6 ⊛ z 3158 ⊹ z 5 ⊛ z 262 ⊛ z 1586 ⊹ z 6 ⊛ z 10 ⊛ z 259 ⊛ z 1586 ⊹ z 23 ⊛ (z 3160 ⊹ z
    3162) ⊝ z 6 ⊛ z 9 ⊛ z 257 ⊛ z 1586 ⊝ z 25 ⊛ (z 3164 ⊹ z 3165)),
(3167, d2 ⊛ z 3054 ⊹ d1 ⊛ z 10 ⊛ z 3009),
(3168, z 40 ⊛ z 3054 ⊹ qt 2 ⊛ rf ⊛ z 77 ⊛ z 3161),
(3169, neg d1 ⊛ z 3015 ⊝ d3 ⊛ z 3054),
(3170, z 39 ⊛ z 3054 ⊹ qt 2 ⊛ rf ⊛ z 77 ⊛ z 3156),
(3171, d3 ⊛ z 3043 ⊝ d2 ⊛ z 3035),
(3172, z 3171 ⊹ d1 ⊛ z 9 ⊛ z 3009),
(3173, z 11 ⊛ z 39 ⊛ z 3070 ⊹ z 12 ⊛ z 40 ⊛ z 92 ⊛ z 1651 ⊹ qt 2 ⊛ rf ⊛ z 11 ⊛ z 97 ⊛ z 3156 ⊝ z
    11 ⊛ z 40 ⊛ z 3063 ⊝ z 12 ⊛ z 39 ⊛ z 3063 ⊝ z 12 ⊛ z 40 ⊛ z 3070 ⊝ z 11 ⊛ z 39 ⊛ z 92 ⊛ z 1651
    ⊝ z 11 ⊛ z 40 ⊛ z 97 ⊛ z 1651 ⊝ z 12 ⊛ z 39 ⊛ z 97 ⊛ z 1651 ⊝ qt 2 ⊛ rf ⊛ z 11 ⊛ z 92 ⊛ z 3161
    ⊝ qt 2 ⊛ rf ⊛ z 12 ⊛ z 92 ⊛ z 3156 ⊝ qt 2 ⊛ rf ⊛ z 12 ⊛ z 97 ⊛ z 3161),
(3174, z 5 ⊛ z 263 ⊛ z 1586 ⊹ z 6 ⊛ z 10 ⊛ z 261 ⊛ z 1586 ⊹ z 23 ⊛ (z 3167 ⊹ z 3168) ⊹ z 6 ⊛ (z
    3169 ⊝ z 3170) ⊝ z 6 ⊛ z 9 ⊛ z 256 ⊛ z 1586 ⊝ z 25 ⊛ (z 3172 ⊹ z 3173)),
(3175, z 40 ⊛ z 3055 ⊹ qt 2 ⊛ rf ⊛ z 76 ⊛ z 3161),
(3176, n 2 ⊛ d1 ⊛ z 3016 ⊝ d3 ⊛ z 3055),
(3177, z 39 ⊛ z 3055 ⊹ qt 2 ⊛ rf ⊛ z 76 ⊛ z 3156),
(3178, d3 ⊛ z 3046 ⊝ d2 ⊛ z 3038),
(3179, z 11 ⊛ z 39 ⊛ z 3071 ⊹ z 12 ⊛ z 40 ⊛ z 91 ⊛ z 1651 ⊹ qt 2 ⊛ rf ⊛ z 11 ⊛ z 95 ⊛ z 3156 ⊝ z
    11 ⊛ z 40 ⊛ z 3064 ⊝ z 12 ⊛ z 39 ⊛ z 3064 ⊝ z 12 ⊛ z 40 ⊛ z 3071 ⊝ z 11 ⊛ z 39 ⊛ z 91 ⊛ z 1651
    ⊝ z 11 ⊛ z 40 ⊛ z 95 ⊛ z 1651 ⊝ z 12 ⊛ z 39 ⊛ z 95 ⊛ z 1651 ⊝ qt 2 ⊛ rf ⊛ z 11 ⊛ z 91 ⊛ z 3161
    ⊝ qt 2 ⊛ rf ⊛ z 12 ⊛ z 91 ⊛ z 3156 ⊝ qt 2 ⊛ rf ⊛ z 12 ⊛ z 95 ⊛ z 3161),
(3180, z 5 ⊛ z 264 ⊛ z 1586 ⊹ z 6 ⊛ z 10 ⊛ z 260 ⊛ z 1586 ⊹ z 6 ⊛ (z 3176 ⊝ z 3177) ⊹ z 23 ⊛ (z
    3175 ⊹ d2 ⊛ z 3055) ⊝ z 6 ⊛ z 9 ⊛ z 255 ⊛ z 1586 ⊝ z 25 ⊛ (z 3178 ⊹ z 3179)),
(3181, qt 2 ⊛ rf ⊛ z 23 ⊛ z 83 ⊛ z 3161 ⊝ z 5 ⊛ z 250 ⊛ z 1586 ⊝ z 6 ⊛ z 9 ⊛ z 254 ⊛ z 1586 ⊝ qt 2
    ⊛ rf ⊛ z 6 ⊛ z 83 ⊛ z 3156),
(3182, d3 ⊛ z 3047 ⊝ d2 ⊛ z 3041)]

/-- _mooreriderlean2012.py:6686-6798 -/
def part57 : List (ℕ × E) := [
(3183, z 11 ⊛ z 39 ⊛ z 3072 ⊹ z 12 ⊛ z 40 ⊛ z 93 ⊛ z 1651 ⊹ qt 2 ⊛ rf ⊛ z 11 ⊛ z 96 ⊛ z 3156 ⊝ z
    11 ⊛ z 40 ⊛ z 3065 ⊝ z 12 ⊛ z 39 ⊛ z 3065 ⊝ z 12 ⊛ z 40 ⊛ z 3072 ⊝ z 11 ⊛ z 39 ⊛ z 93 ⊛ z 1651
    ⊝ z 11 ⊛ z 40 ⊛ z 96 ⊛ z 1651 ⊝ z 12 ⊛ z 39 ⊛ z 96 ⊛ z 1651 ⊝ qt 2 ⊛ rf ⊛ z 11 ⊛ z 93 ⊛ z 3161
    ⊝ qt 2 ⊛ rf ⊛ z 12 ⊛ z 93 ⊛ z 3156 ⊝ qt 2 ⊛ rf ⊛ z 12 ⊛ z 96 ⊛ z 3161),
(3184, z 25 ⊛ (z 3182 ⊹ z 3183) ⊝ z 6 ⊛ z 10 ⊛ z 258 ⊛ z 1586),
(3185, u1 ⊛ z 3147 ⊹ u2 ⊛ z 3152 ⊹ u3 ⊛ z 3166 ⊹ u4 ⊛ z 3174 ⊹ u5 ⊛ z 3180 ⊹ u8 ⊛ z 3181 ⊹ z 1338
    ⊛ z 573 ⊹ z 1508 ⊛ z 578 ⊹ z 1557 ⊛ z 616 ⊹ z 1586 ⊛ z 594 ⊹ z 1651 ⊛ z 586 ⊝ u7 ⊛ z 3184),
(3186, rr ⊛ u4 ⊛ z 3015 ⊹ z 1 ⊛ u2 ⊛ z 1557 ⊹ z 1 ⊛ z 1508 ⊛ q3p ⊹ z 1557 ⊛ z 552 ⊹ rr ⊛ z 1586 ⊛
    z 275 ⊝ n 2 ⊛ rr ⊛ u5 ⊛ z 3016 ⊝ z 2 ⊛ u1 ⊛ z 1557 ⊝ z 2 ⊛ z 1338 ⊛ q3p),
(3187, z 25 ⊛ z 3153 ⊝ z 6 ⊛ z 10 ⊛ z 33 ⊛ z 1586),
(3188, (n 2 ⊛ z 35 ⊛ z 3187 ⊝ z 416 ⊛ z 3155) ⊘ hpow (z 35) 3),
(3189, ((z 25 ⊛ z 36 ⊝ n 2 ⊛ z 33 ⊛ z 420) ⊛ z 3155 ⊘ hpow (z 35) 1 ⊹ z 36 ⊛ (z 33 ⊛ z 3188 ⊹ n 2
    ⊛ z 420 ⊛ z 3153 ⊹ n 2 ⊛ z 6 ⊛ z 10 ⊛ z 36 ⊛ z 1586)) ⊘ pow (z 36) 3),
(3190, (z 34 ⊛ z 36 ⊛ z 3188 ⊹ n 2 ⊛ z 36 ⊛ z 420 ⊛ z 3154 ⊝ n 2 ⊛ z 34 ⊛ z 420 ⊛ z 3155 ⊘ hpow (z
    35) 1) ⊘ pow (z 36) 3),
(3191, z 3 ⊛ z 6 ⊛ z 434 ⊛ z 1586 ⊝ z 443 ⊛ z 3039 ⊝ qt 2 ⊛ rf ⊛ z 28 ⊛ z 3189 ⊝ qt 2 ⊛ rf ⊛ z 32
    ⊛ z 3190),
(3192, z 25 ⊛ z 3154 ⊝ z 6 ⊛ z 10 ⊛ z 34 ⊛ z 1586),
(3193, (n 2 ⊛ z 35 ⊛ z 3192 ⊝ z 412 ⊛ z 3155) ⊘ hpow (z 35) 3),
(3194, (z 33 ⊛ z 36 ⊛ z 3193 ⊹ n 2 ⊛ z 36 ⊛ z 418 ⊛ z 3153 ⊝ n 2 ⊛ z 33 ⊛ z 418 ⊛ z 3155 ⊘ hpow (z
    35) 1) ⊘ pow (z 36) 3),
(3195, ((z 25 ⊛ z 36 ⊝ n 2 ⊛ z 34 ⊛ z 418) ⊛ z 3155 ⊘ hpow (z 35) 1 ⊹ z 36 ⊛ (z 34 ⊛ z 3193 ⊹ n 2
    ⊛ z 418 ⊛ z 3154 ⊹ n 2 ⊛ z 6 ⊛ z 10 ⊛ z 36 ⊛ z 1586)) ⊘ pow (z 36) 3),
(3196, z 444 ⊛ z 3039 ⊝ qt 2 ⊛ rf ⊛ z 28 ⊛ z 3194 ⊝ qt 2 ⊛ rf ⊛ z 32 ⊛ z 3195 ⊝ z 3 ⊛ z 6 ⊛ z 432
    ⊛ z 1586),
(3197, n 2 ⊛ z 23 ⊛ z 3154 ⊝ n 2 ⊛ z 6 ⊛ z 3153 ⊝ n 2 ⊛ z 5 ⊛ z 33 ⊛ z 1586 ⊝ n 2 ⊛ z 6 ⊛ z 9 ⊛ z
    34 ⊛ z 1586),
(3198, (n 2 ⊛ z 35 ⊛ z 3197 ⊝ z 411 ⊛ z 3155) ⊘ hpow (z 35) 3),
(3199, (n 2 ⊛ z 33 ⊛ z 421 ⊛ z 3155 ⊘ hpow (z 35) 1 ⊝ z 36 ⊛ (z 33 ⊛ z 3198 ⊹ n 2 ⊛ z 421 ⊛ z 3153
    ⊹ n 4 ⊛ z 5 ⊛ z 36 ⊛ z 1586 ⊝ n 2 ⊛ z 6 ⊛ z 3155 ⊘ hpow (z 35) 1)) ⊘ pow (z 36) 3),
(3200, (n 2 ⊛ (z 23 ⊛ z 36 ⊝ z 34 ⊛ z 421) ⊛ z 3155 ⊘ hpow (z 35) 1 ⊹ z 36 ⊛ (z 34 ⊛ z 3198 ⊹ n 2
    ⊛ z 421 ⊛ z 3154 ⊹ n 4 ⊛ z 6 ⊛ z 9 ⊛ z 36 ⊛ z 1586)) ⊘ pow (z 36) 3),
(3201, qt 2 ⊛ z 446 ⊛ z 3039 ⊹ qt 1 ⊛ rf ⊛ z 28 ⊛ z 3199 ⊝ qt 1 ⊛ rf ⊛ z 32 ⊛ z 3200 ⊝ qt 2 ⊛ z 3
    ⊛ z 6 ⊛ z 430 ⊛ z 1586),
(3202, z 3 ⊛ z 5 ⊛ z 3191 ⊹ d1 ⊛ z 4 ⊛ z 5 ⊛ z 1586 ⊹ z 4 ⊛ z 6 ⊛ z 448 ⊛ z 1586 ⊹ z 3 ⊛ z 5 ⊛ z 9
    ⊛ z 453 ⊛ z 1586 ⊹ z 4 ⊛ z 5 ⊛ z 9 ⊛ z 449 ⊛ z 1586 ⊹ (z 3 ⊛ z 24 ⊝ z 4 ⊛ z 10) ⊛ z 3196 ⊹ qt
    2 ⊛ rf ⊛ (z 3 ⊛ z 10 ⊹ z 4 ⊛ z 24) ⊛ z 3156 ⊝ z 3 ⊛ z 6 ⊛ z 455 ⊛ z 1586 ⊝ qt 2 ⊛ rf ⊛ z 4 ⊛ z
    5 ⊛ z 3161 ⊝ z 3 ⊛ z 5 ⊛ z 10 ⊛ z 451 ⊛ z 1586 ⊝ (z 3 ⊛ z 26 ⊹ z 4 ⊛ z 9) ⊛ z 3201),
(3203, neg (z 5) ⊛ z 3033 ⊝ z 6 ⊛ z 29 ⊛ z 1586),
(3204, z 33 ⊛ z 3203 ⊹ z 410 ⊛ z 3153),
(3205, (n 2 ⊛ z 35 ⊛ z 3204 ⊝ z 415 ⊛ z 3155) ⊘ hpow (z 35) 3),
(3206, (z 34 ⊛ z 36 ⊛ z 3205 ⊹ n 2 ⊛ z 36 ⊛ z 417 ⊛ z 3154 ⊝ n 2 ⊛ z 34 ⊛ z 417 ⊛ z 3155 ⊘ hpow (z
    35) 1) ⊘ pow (z 36) 3),
(3207, (n 2 ⊛ z 33 ⊛ z 417 ⊛ z 3155 ⊘ hpow (z 35) 1 ⊹ z 36 ⊛ (n 2 ⊛ z 36 ⊛ z 3203 ⊝ n 2 ⊛ z 417 ⊛
    z 3153 ⊝ z 33 ⊛ z 3205 ⊝ z 410 ⊛ z 3155 ⊘ hpow (z 35) 1)) ⊘ pow (z 36) 3),
(3208, qt 2 ⊛ rf ⊛ z 32 ⊛ z 3206 ⊝ z 441 ⊛ z 3039 ⊝ qt 2 ⊛ rf ⊛ z 28 ⊛ z 3207 ⊝ z 3 ⊛ z 6 ⊛ z 429
    ⊛ z 1586),
(3209, z 29 ⊛ z 3154 ⊝ z 34 ⊛ z 3033),
(3210, (n 2 ⊛ z 35 ⊛ z 3209 ⊝ z 414 ⊛ z 3155) ⊘ hpow (z 35) 3),
(3211, (z 33 ⊛ z 36 ⊛ z 3210 ⊹ n 2 ⊛ z 36 ⊛ z 419 ⊛ z 3153 ⊝ n 2 ⊛ z 33 ⊛ z 419 ⊛ z 3155 ⊘ hpow (z
    35) 1) ⊘ pow (z 36) 3),
(3212, ((z 29 ⊛ z 36 ⊝ n 2 ⊛ z 34 ⊛ z 419) ⊛ z 3155 ⊘ hpow (z 35) 1 ⊹ z 36 ⊛ (z 34 ⊛ z 3210 ⊹ n 2
    ⊛ z 36 ⊛ z 3033 ⊹ n 2 ⊛ z 419 ⊛ z 3154)) ⊘ pow (z 36) 3),
(3213, z 445 ⊛ z 3039 ⊝ qt 2 ⊛ rf ⊛ z 28 ⊛ z 3211 ⊝ qt 2 ⊛ rf ⊛ z 32 ⊛ z 3212 ⊝ z 3 ⊛ z 6 ⊛ z 433
    ⊛ z 1586),
(3214, n 2 ⊛ z 27 ⊛ z 3154 ⊹ n 2 ⊛ z 31 ⊛ z 3153 ⊹ n 2 ⊛ z 34 ⊛ z 3040 ⊝ n 2 ⊛ z 4 ⊛ z 6 ⊛ z 33 ⊛
    z 1586),
(3215, (n 2 ⊛ z 35 ⊛ z 3214 ⊝ z 413 ⊛ z 3155) ⊘ hpow (z 35) 3),
(3216, (n 2 ⊛ (z 31 ⊛ z 36 ⊝ z 33 ⊛ z 422) ⊛ z 3155 ⊘ hpow (z 35) 1 ⊹ z 36 ⊛ (z 33 ⊛ z 3215 ⊹ n 2
    ⊛ z 422 ⊛ z 3153 ⊹ n 4 ⊛ z 4 ⊛ z 6 ⊛ z 36 ⊛ z 1586)) ⊘ pow (z 36) 3),
(3217, (n 2 ⊛ (z 27 ⊛ z 36 ⊝ z 34 ⊛ z 422) ⊛ z 3155 ⊘ hpow (z 35) 1 ⊝ z 36 ⊛ (n 4 ⊛ z 36 ⊛ z 3040
    ⊝ n 2 ⊛ z 422 ⊛ z 3154 ⊝ z 34 ⊛ z 3215)) ⊘ pow (z 36) 3),
(3218, neg (qt 2) ⊛ z 442 ⊛ z 3039 ⊝ qt 1 ⊛ rf ⊛ z 28 ⊛ z 3216 ⊝ qt 1 ⊛ rf ⊛ z 32 ⊛ z 3217 ⊝ qt 2
    ⊛ z 3 ⊛ z 6 ⊛ z 431 ⊛ z 1586),
(3219, z 3208 ⊹ d1 ⊛ z 3 ⊛ z 6 ⊛ z 1586 ⊹ z 4 ⊛ z 5 ⊛ z 9 ⊛ z 3196 ⊹ z 3 ⊛ z 6 ⊛ z 9 ⊛ z 449 ⊛ z
    1586 ⊹ z 4 ⊛ z 6 ⊛ z 10 ⊛ z 451 ⊛ z 1586 ⊝ z 4 ⊛ z 6 ⊛ z 3191 ⊝ z 6 ⊛ z 9 ⊛ z 3213 ⊝ z 6 ⊛ z
    10 ⊛ z 3218 ⊝ z 3 ⊛ z 5 ⊛ z 448 ⊛ z 1586 ⊝ z 4 ⊛ z 5 ⊛ z 10 ⊛ z 3201 ⊝ z 4 ⊛ z 5 ⊛ z 455 ⊛ z
    1586 ⊝ z 5 ⊛ z 9 ⊛ z 454 ⊛ z 1586 ⊝ z 5 ⊛ z 10 ⊛ z 452 ⊛ z 1586 ⊝ qt 2 ⊛ rf ⊛ z 3 ⊛ z 6 ⊛ z
    3161 ⊝ z 4 ⊛ z 6 ⊛ z 9 ⊛ z 453 ⊛ z 1586 ⊝ qt 2 ⊛ rf ⊛ z 3 ⊛ z 5 ⊛ z 9 ⊛ z 3156),
(3220, z 5 ⊛ z 9 ⊛ z 3218 ⊹ z 6 ⊛ z 10 ⊛ z 454 ⊛ z 1586 ⊹ z 3 ⊛ z 5 ⊛ z 10 ⊛ z 449 ⊛ z 1586 ⊹ (z 3
    ⊛ z 9 ⊝ z 4 ⊛ z 6 ⊛ z 10) ⊛ z 3196 ⊹ qt 2 ⊛ rf ⊛ (z 4 ⊛ z 9 ⊹ z 3 ⊛ z 6 ⊛ z 10) ⊛ z 3156 ⊝ z 5
    ⊛ z 10 ⊛ z 3213 ⊝ z 6 ⊛ z 9 ⊛ z 452 ⊛ z 1586 ⊝ z 4 ⊛ z 5 ⊛ z 9 ⊛ z 451 ⊛ z 1586 ⊝ z 4 ⊛ z 5 ⊛
    z 10 ⊛ z 453 ⊛ z 1586 ⊝ (z 3 ⊛ z 10 ⊹ z 4 ⊛ z 6 ⊛ z 9) ⊛ z 3201),
(3221, u4 ⊛ z 3202 ⊹ u5 ⊛ z 3219 ⊹ u7 ⊛ z 3220 ⊹ z 1586 ⊛ z 662),
(3222, z 27 ⊛ z 3145 ⊹ z 29 ⊛ z 3146 ⊹ z 233 ⊛ z 3040 ⊹ z 4 ⊛ z 6 ⊛ z 122 ⊛ z 1586 ⊝ z 31 ⊛ z 3143
    ⊝ z 238 ⊛ z 3033),
(3223, z 27 ⊛ z 3150 ⊹ z 29 ⊛ z 3151 ⊹ z 234 ⊛ z 3040 ⊹ z 4 ⊛ z 6 ⊛ z 125 ⊛ z 1586 ⊝ z 31 ⊛ z 3148
    ⊝ z 239 ⊛ z 3033),
(3224, z 257 ⊛ z 3040 ⊹ z 4 ⊛ z 6 ⊛ z 262 ⊛ z 1586 ⊹ z 27 ⊛ (z 3160 ⊹ z 3162) ⊹ z 29 ⊛ (z 3164 ⊹ z
    3165) ⊝ z 31 ⊛ z 3158 ⊝ z 259 ⊛ z 3033),
(3225, z 256 ⊛ z 3040 ⊹ z 4 ⊛ z 6 ⊛ z 263 ⊛ z 1586 ⊹ z 27 ⊛ (z 3167 ⊹ z 3168) ⊹ z 29 ⊛ (z 3172 ⊹ z
    3173) ⊝ z 261 ⊛ z 3033 ⊝ z 31 ⊛ (z 3169 ⊝ z 3170)),
(3226, z 255 ⊛ z 3040 ⊹ z 4 ⊛ z 6 ⊛ z 264 ⊛ z 1586 ⊹ z 29 ⊛ (z 3178 ⊹ z 3179) ⊹ z 27 ⊛ (z 3175 ⊹
    d2 ⊛ z 3055) ⊝ z 260 ⊛ z 3033 ⊝ z 31 ⊛ (z 3176 ⊝ z 3177)),
(3227, z 29 ⊛ (z 3182 ⊹ z 3183) ⊝ z 258 ⊛ z 3033),
(3228, z 254 ⊛ z 3040 ⊹ qt 2 ⊛ rf ⊛ z 27 ⊛ z 83 ⊛ z 3161 ⊹ qt 2 ⊛ rf ⊛ z 31 ⊛ z 83 ⊛ z 3156 ⊝ z 4
    ⊛ z 6 ⊛ z 250 ⊛ z 1586),
(3229, u1 ⊛ z 3222 ⊹ u2 ⊛ z 3223 ⊹ u3 ⊛ z 3224 ⊹ u4 ⊛ z 3225 ⊹ u5 ⊛ z 3226 ⊹ u7 ⊛ z 3227 ⊹ u8 ⊛ z
    3228 ⊹ z 1338 ⊛ z 621 ⊹ z 1508 ⊛ z 622 ⊹ z 1557 ⊛ z 626 ⊹ z 1586 ⊛ z 624 ⊹ z 1651 ⊛ z 623),
(3230, (z 1334 ⊛ (z 525 ⊛ z 568 ⊹ z 478 ⊛ z 496 ⊛ z 620 ⊝ z 511 ⊛ z 553 ⊝ z 535 ⊛ z 664 ⊝ z 478 ⊛
    z 528 ⊛ z 628) ⊹ z 494 ⊛ (z 525 ⊛ z 3142 ⊹ z 478 ⊛ z 496 ⊛ z 3185 ⊝ z 511 ⊛ z 3186 ⊝ z 535 ⊛ z
    3221 ⊝ z 1553 ⊛ z 664 ⊝ z 478 ⊛ z 528 ⊛ z 3229)) ⊘ pow (z 494) 2),
(3231, z 60 ⊛ z 795 ⊝ z 786 ⊛ z 1326 ⊝ id11 ⊛ z 7 ⊛ z 48 ⊛ z 60 ⊝ id11 ⊛ z 8 ⊛ z 48 ⊛ z 63),
(3232, z 3231 ⊹ z 544 ⊛ z 2997 ⊹ z 547 ⊛ z 2996 ⊹ z 911 ⊛ z 1335 ⊹ z 928 ⊛ z 1584 ⊹ z 934 ⊛ z 1648
    ⊝ z 915 ⊛ z 1507 ⊝ z 920 ⊛ z 1554),
(3233, (z 494 ⊛ z 536 ⊛ z 3221 ⊹ z 494 ⊛ z 1583 ⊛ z 664 ⊹ z 536 ⊛ z 1334 ⊛ z 664) ⊘ pow (z 494) 2),
(3234, z 931 ⊛ z 1584 ⊹ z 937 ⊛ z 1648 ⊝ z 923 ⊛ z 1554),
(3235, (z 1334 ⊛ (z 526 ⊛ z 568 ⊹ z 532 ⊛ z 628 ⊝ z 512 ⊛ z 553 ⊝ z 527 ⊛ z 620 ⊝ z 537 ⊛ z 664) ⊹
    z 494 ⊛ (z 526 ⊛ z 3142 ⊹ z 532 ⊛ z 3229 ⊹ z 1644 ⊛ z 628 ⊹ z 1645 ⊛ z 553 ⊝ z 512 ⊛ z 3186 ⊝
    z 527 ⊛ z 3185 ⊝ z 537 ⊛ z 3221 ⊝ z 1646 ⊛ z 620 ⊝ z 1647 ⊛ z 664)) ⊘ pow (z 494) 2),
(3236, z 909 ⊛ z 1335 ⊹ z 911 ⊛ z 1584 ⊝ z 910 ⊛ z 1507 ⊝ z 912 ⊛ z 1554)]

/-- _mooreriderlean2012.py:6799-6927 -/
def part58 : List (ℕ × E) := [
(3237, (z 1334 ⊛ (z 519 ⊛ z 568 ⊹ z 487 ⊛ z 496 ⊛ z 620 ⊝ z 504 ⊛ z 553 ⊝ z 533 ⊛ z 664 ⊝ z 487 ⊛
    z 528 ⊛ z 628) ⊝ z 494 ⊛ (z 504 ⊛ z 3186 ⊹ z 533 ⊛ z 3221 ⊹ z 1333 ⊛ z 664 ⊹ z 487 ⊛ z 528 ⊛ z
    3229 ⊹ z 2 ⊛ z 3 ⊛ z 496 ⊛ z 1329 ⊛ z 620 ⊝ z 519 ⊛ z 3142 ⊝ z 1330 ⊛ z 553 ⊝ z 487 ⊛ z 496 ⊛
    z 3185 ⊝ z 2 ⊛ z 3 ⊛ z 528 ⊛ z 1329 ⊛ z 628)) ⊘ pow (z 494) 2),
(3238, z 910 ⊛ z 1335 ⊹ z 915 ⊛ z 1584 ⊝ z 914 ⊛ z 1507 ⊝ z 916 ⊛ z 1554),
(3239, (z 1334 ⊛ (z 523 ⊛ z 568 ⊹ z 482 ⊛ z 496 ⊛ z 620 ⊝ z 509 ⊛ z 553 ⊝ z 534 ⊛ z 664 ⊝ z 482 ⊛
    z 528 ⊛ z 628) ⊝ z 494 ⊛ (z 509 ⊛ z 3186 ⊹ z 534 ⊛ z 3221 ⊹ z 1505 ⊛ z 664 ⊹ z 482 ⊛ z 528 ⊛ z
    3229 ⊹ z 1 ⊛ z 3 ⊛ z 496 ⊛ z 1329 ⊛ z 620 ⊝ z 523 ⊛ z 3142 ⊝ z 1503 ⊛ z 553 ⊝ z 482 ⊛ z 496 ⊛
    z 3185 ⊝ z 1 ⊛ z 3 ⊛ z 528 ⊛ z 1329 ⊛ z 628)) ⊘ pow (z 494) 2),
(3240, z 3129 ⊹ z 940 ⊛ z 3230 ⊹ z 941 ⊛ z 3233 ⊹ z 944 ⊛ z 3235 ⊹ z 946 ⊛ z 3237 ⊹ z 3131 ⊛ z 667
    ⊹ z 3232 ⊛ z 668 ⊹ z 3234 ⊛ z 669 ⊹ z 3236 ⊛ z 665 ⊝ z 947 ⊛ z 3239 ⊝ z 3238 ⊛ z 666),
(3241, z 78 ⊛ z 1584 ⊝ z 52 ⊛ z 1554),
(3242, z 48 ⊛ z 1584 ⊝ z 52 ⊛ z 1554),
(3243, z 182 ⊛ z 1335 ⊹ z 210 ⊛ z 1584 ⊝ z 183 ⊛ z 1507 ⊝ z 211 ⊛ z 1554),
(3244, z 187 ⊛ z 1335 ⊹ z 213 ⊛ z 1584 ⊝ z 188 ⊛ z 1507 ⊝ z 214 ⊛ z 1554),
(3245, z 192 ⊛ z 1335 ⊹ z 216 ⊛ z 1584 ⊝ z 193 ⊛ z 1507 ⊝ z 217 ⊛ z 1554),
(3246, z 128 ⊛ z 1584 ⊝ z 121 ⊛ z 1335 ⊝ z 124 ⊛ z 1507 ⊝ z 130 ⊛ z 1554),
(3247, z 122 ⊛ z 1335 ⊝ z 125 ⊛ z 1507 ⊝ z 132 ⊛ z 1584 ⊝ z 138 ⊛ z 1554),
(3248, z 120 ⊛ z 1335 ⊹ z 135 ⊛ z 1584 ⊝ z 123 ⊛ z 1507 ⊝ z 137 ⊛ z 1554),
(3249, z 111 ⊛ z 1584 ⊝ z 110 ⊛ z 1554),
(3250, z 120 ⊛ z 1335 ⊹ z 126 ⊛ z 1554 ⊝ z 123 ⊛ z 1507),
(3251, z 143 ⊛ z 1584 ⊝ z 121 ⊛ z 1335 ⊝ z 124 ⊛ z 1507 ⊝ z 145 ⊛ z 1554),
(3252, z 122 ⊛ z 1335 ⊝ z 125 ⊛ z 1507 ⊝ z 141 ⊛ z 1584 ⊝ z 146 ⊛ z 1554),
(3253, z 169 ⊛ z 1554 ⊝ z 167 ⊛ z 1584),
(3254, z 164 ⊛ z 1584 ⊝ z 166 ⊛ z 1554),
(3255, z 160 ⊛ z 1584 ⊝ z 159 ⊛ z 1554),
(3256, z 157 ⊛ z 1554 ⊝ z 155 ⊛ z 1584),
(3257, z 152 ⊛ z 1584 ⊝ z 154 ⊛ z 1554),
(3258, z 149 ⊛ z 1584 ⊝ z 148 ⊛ z 1554),
(3259, T7 ⊛ z 3241 ⊹ T4 ⊛ z 6 ⊛ z 3242 ⊹ T4 ⊛ z 5 ⊛ z 50 ⊛ z 1554 ⊹ z 406 ⊛ (z 106 ⊛ z 3243 ⊹ z
    107 ⊛ z 3244 ⊹ z 108 ⊛ z 3245) ⊹ z 402 ⊛ (z 4 ⊛ z 3246 ⊹ z 32 ⊛ z 3247 ⊝ z 42 ⊛ z 3248) ⊹ z
    3249 ⊛ z 408 ⊹ z 14 ⊛ z 3242 ⊛ z 409 ⊹ z 13 ⊛ z 50 ⊛ z 1554 ⊛ z 409 ⊝ T7 ⊛ z 3242 ⊝ z 404 ⊛ (z
    42 ⊛ z 3250 ⊝ z 4 ⊛ z 3251 ⊝ z 32 ⊛ z 3252 ⊝ z 32 ⊛ z 3253 ⊝ z 733 ⊛ z 3254 ⊝ z 734 ⊛ z 3255)
    ⊝ z 405 ⊛ (z 42 ⊛ z 3250 ⊝ z 4 ⊛ z 3251 ⊝ z 32 ⊛ z 3252 ⊝ z 32 ⊛ z 3256 ⊝ z 733 ⊛ z 3257 ⊝ z
    734 ⊛ z 3258)),
(3260, z 929 ⊛ z 1584 ⊝ z 921 ⊛ z 1554),
(3261, z 3260 ⊹ z 542 ⊛ z 3238 ⊹ z 944 ⊛ z 1650 ⊹ z 946 ⊛ z 1336 ⊝ z 539 ⊛ z 3236 ⊝ z 545 ⊛ z 3131
    ⊝ z 550 ⊛ z 3234 ⊝ z 940 ⊛ z 1555 ⊝ z 947 ⊛ z 1504),
(3262, z 906 ⊛ z 1335 ⊹ z 932 ⊛ z 1584 ⊝ z 907 ⊛ z 1507 ⊝ z 924 ⊛ z 1554),
(3263, z 950 ⊛ z 2986 ⊹ z 960 ⊛ z 3261 ⊝ z 945 ⊛ z 2984 ⊝ z 964 ⊛ z 3262),
(3264, z 930 ⊛ z 1584 ⊝ z 899 ⊛ z 1335 ⊝ z 900 ⊛ z 1507 ⊝ z 922 ⊛ z 1554),
(3265, z 3264 ⊹ z 543 ⊛ z 3238 ⊹ z 548 ⊛ z 3232 ⊹ z 551 ⊛ z 3234 ⊹ z 941 ⊛ z 1585 ⊹ z 944 ⊛ z 1649
    ⊹ z 947 ⊛ z 1506 ⊝ z 540 ⊛ z 3236 ⊝ z 546 ⊛ z 3131 ⊝ z 940 ⊛ z 1556 ⊝ z 946 ⊛ z 1337),
(3266, z 950 ⊛ z 3002 ⊹ z 965 ⊛ z 3261 ⊝ z 951 ⊛ z 2984 ⊝ z 964 ⊛ z 3265),
(3267, z 951 ⊛ z 2986 ⊹ z 960 ⊛ z 3265 ⊝ z 945 ⊛ z 3002 ⊝ z 965 ⊛ z 3262),
(3268, z 983 ⊛ z 3263 ⊹ z 997 ⊛ z 2978 ⊝ z 905 ⊛ z 3266 ⊝ z 982 ⊛ z 3267 ⊝ z 999 ⊛ z 3004),
(3269, z 75 ⊛ z 3053 ⊹ z 79 ⊛ z 3062 ⊹ z 93 ⊛ z 3069 ⊹ z 96 ⊛ z 3075 ⊹ ie11 ⊛ z 75 ⊛ z 3042 ⊹ ie31
    ⊛ z 75 ⊛ z 3048 ⊹ ie31 ⊛ z 79 ⊛ z 3042 ⊹ ie33 ⊛ z 79 ⊛ z 3048 ⊹ if11 ⊛ z 93 ⊛ z 3067 ⊹ if11 ⊛
    z 96 ⊛ z 3074 ⊹ me ⊛ z 161 ⊛ (z 3117 ⊹ z 9 ⊛ z 3115 ⊝ z 10 ⊛ z 3114) ⊹ mf ⊛ z 150 ⊛ (z 3121 ⊹
    z 9 ⊛ z 3115 ⊝ z 10 ⊛ z 3114)),
(3270, z 3269 ⊹ z 543 ⊛ z 3128 ⊹ z 548 ⊛ z 3126 ⊹ z 551 ⊛ z 3127 ⊹ z 1506 ⊛ z 917 ⊹ z 1585 ⊛ z 933
    ⊹ z 1649 ⊛ z 938 ⊝ z 540 ⊛ z 3124 ⊝ z 546 ⊛ z 3125 ⊝ z 1337 ⊛ z 913 ⊝ z 1556 ⊛ z 925),
(3271, z 3270 ⊹ z 967 ⊛ z 3233 ⊹ z 970 ⊛ z 3230 ⊹ z 971 ⊛ z 3237 ⊹ z 975 ⊛ z 3235 ⊹ z 2989 ⊛ z 665
    ⊹ z 2991 ⊛ z 667 ⊹ z 2992 ⊛ z 669 ⊹ z 2998 ⊛ z 668 ⊝ z 972 ⊛ z 3239 ⊝ z 2988 ⊛ z 666),
(3272, z 78 ⊛ z 1585 ⊝ z 52 ⊛ z 1556),
(3273, z 48 ⊛ z 1585 ⊝ z 52 ⊛ z 1556),
(3274, z 183 ⊛ z 1506 ⊹ z 210 ⊛ z 1585 ⊝ z 182 ⊛ z 1337 ⊝ z 211 ⊛ z 1556),
(3275, z 188 ⊛ z 1506 ⊹ z 213 ⊛ z 1585 ⊝ z 187 ⊛ z 1337 ⊝ z 214 ⊛ z 1556),
(3276, z 193 ⊛ z 1506 ⊹ z 216 ⊛ z 1585 ⊝ z 192 ⊛ z 1337 ⊝ z 217 ⊛ z 1556),
(3277, z 121 ⊛ z 1337 ⊹ z 124 ⊛ z 1506 ⊹ z 128 ⊛ z 1585 ⊝ z 130 ⊛ z 1556),
(3278, z 125 ⊛ z 1506 ⊝ z 122 ⊛ z 1337 ⊝ z 132 ⊛ z 1585 ⊝ z 138 ⊛ z 1556),
(3279, z 123 ⊛ z 1506 ⊹ z 135 ⊛ z 1585 ⊝ z 120 ⊛ z 1337 ⊝ z 137 ⊛ z 1556),
(3280, z 111 ⊛ z 1585 ⊝ z 110 ⊛ z 1556),
(3281, z 123 ⊛ z 1506 ⊹ z 126 ⊛ z 1556 ⊝ z 120 ⊛ z 1337),
(3282, z 121 ⊛ z 1337 ⊹ z 124 ⊛ z 1506 ⊹ z 143 ⊛ z 1585 ⊝ z 145 ⊛ z 1556),
(3283, z 125 ⊛ z 1506 ⊝ z 122 ⊛ z 1337 ⊝ z 141 ⊛ z 1585 ⊝ z 146 ⊛ z 1556),
(3284, z 169 ⊛ z 1556 ⊝ z 167 ⊛ z 1585),
(3285, z 160 ⊛ z 1585 ⊝ z 159 ⊛ z 1556),
(3286, z 164 ⊛ z 1585 ⊝ z 166 ⊛ z 1556),
(3287, z 157 ⊛ z 1556 ⊝ z 155 ⊛ z 1585),
(3288, z 152 ⊛ z 1585 ⊝ z 154 ⊛ z 1556),
(3289, z 149 ⊛ z 1585 ⊝ z 148 ⊛ z 1556),
(3290, T7 ⊛ z 3272 ⊹ T4 ⊛ z 6 ⊛ z 3273 ⊹ T4 ⊛ z 5 ⊛ z 50 ⊛ z 1556 ⊹ z 406 ⊛ (z 106 ⊛ z 3274 ⊹ z
    107 ⊛ z 3275 ⊹ z 108 ⊛ z 3276) ⊹ z 402 ⊛ (z 4 ⊛ z 3277 ⊹ z 32 ⊛ z 3278 ⊝ z 42 ⊛ z 3279) ⊹ z
    3280 ⊛ z 408 ⊹ z 14 ⊛ z 3273 ⊛ z 409 ⊹ z 13 ⊛ z 50 ⊛ z 1556 ⊛ z 409 ⊝ T7 ⊛ z 3273 ⊝ z 404 ⊛ (z
    42 ⊛ z 3281 ⊝ z 4 ⊛ z 3282 ⊝ z 32 ⊛ z 3283 ⊝ z 32 ⊛ z 3284 ⊝ z 733 ⊛ z 3286 ⊝ z 734 ⊛ z 3285)
    ⊝ z 405 ⊛ (z 42 ⊛ z 3281 ⊝ z 4 ⊛ z 3282 ⊝ z 32 ⊛ z 3283 ⊝ z 32 ⊛ z 3287 ⊝ z 733 ⊛ z 3288 ⊝ z
    734 ⊛ z 3289)),
(3291, z 950 ⊛ z 2985 ⊹ z 973 ⊛ z 3261 ⊝ z 945 ⊛ z 2993 ⊝ z 978 ⊛ z 3262),
(3292, z 950 ⊛ z 2999 ⊹ z 979 ⊛ z 3261 ⊝ z 951 ⊛ z 2993 ⊝ z 978 ⊛ z 3265),
(3293, z 951 ⊛ z 2985 ⊹ z 973 ⊛ z 3265 ⊝ z 945 ⊛ z 2999 ⊝ z 979 ⊛ z 3262),
(3294, z 983 ⊛ z 3291 ⊹ z 1013 ⊛ z 2978 ⊝ z 905 ⊛ z 3292 ⊝ z 982 ⊛ z 3293 ⊝ z 1014 ⊛ z 3004),
(3295, z 53 ⊛ (z 3022 ⊹ id22 ⊛ z 3017)),
(3296, z 3295 ⊹ z 542 ⊛ z 3128 ⊹ z 1336 ⊛ z 913 ⊹ z 1650 ⊛ z 938 ⊝ z 539 ⊛ z 3124 ⊝ z 545 ⊛ z 3125
    ⊝ z 550 ⊛ z 3127 ⊝ z 1504 ⊛ z 917 ⊝ z 1555 ⊛ z 925),
(3297, z 3296 ⊹ z 954 ⊛ z 3233 ⊹ z 955 ⊛ z 3230 ⊹ z 957 ⊛ z 3237 ⊹ z 961 ⊛ z 3235 ⊹ z 2980 ⊛ z 665
    ⊹ z 2982 ⊛ z 667 ⊹ z 2983 ⊛ z 669 ⊹ z 3001 ⊛ z 668 ⊝ z 958 ⊛ z 3239 ⊝ z 2979 ⊛ z 666),
(3298, z 182 ⊛ z 1336 ⊝ z 183 ⊛ z 1504 ⊝ z 211 ⊛ z 1555),
(3299, z 187 ⊛ z 1336 ⊝ z 188 ⊛ z 1504 ⊝ z 214 ⊛ z 1555),
(3300, z 192 ⊛ z 1336 ⊝ z 193 ⊛ z 1504 ⊝ z 217 ⊛ z 1555),
(3301, neg (z 121) ⊛ z 1336 ⊝ z 124 ⊛ z 1504 ⊝ z 130 ⊛ z 1555),
(3302, z 122 ⊛ z 1336 ⊝ z 125 ⊛ z 1504 ⊝ z 138 ⊛ z 1555),
(3303, z 120 ⊛ z 1336 ⊝ z 123 ⊛ z 1504 ⊝ z 137 ⊛ z 1555),
(3304, neg (z 121) ⊛ z 1336 ⊝ z 124 ⊛ z 1504 ⊝ z 145 ⊛ z 1555),
(3305, z 122 ⊛ z 1336 ⊝ z 125 ⊛ z 1504 ⊝ z 146 ⊛ z 1555),
(3306, z 120 ⊛ z 1336 ⊹ z 126 ⊛ z 1555 ⊝ z 123 ⊛ z 1504),
(3307, T4 ⊛ z 5 ⊛ z 50 ⊛ z 1555 ⊹ z 406 ⊛ (z 106 ⊛ z 3298 ⊹ z 107 ⊛ z 3299 ⊹ z 108 ⊛ z 3300) ⊹ z
    402 ⊛ (z 4 ⊛ z 3301 ⊹ z 32 ⊛ z 3302 ⊝ z 42 ⊛ z 3303) ⊹ z 404 ⊛ (z 4 ⊛ z 3304 ⊹ z 32 ⊛ z 3305 ⊹
    z 32 ⊛ z 169 ⊛ z 1555 ⊝ z 42 ⊛ z 3306 ⊝ z 159 ⊛ z 734 ⊛ z 1555 ⊝ z 166 ⊛ z 733 ⊛ z 1555) ⊹ z
    405 ⊛ (z 4 ⊛ z 3304 ⊹ z 32 ⊛ z 3305 ⊹ z 32 ⊛ z 157 ⊛ z 1555 ⊝ z 42 ⊛ z 3306 ⊝ z 148 ⊛ z 734 ⊛
    z 1555 ⊝ z 154 ⊛ z 733 ⊛ z 1555) ⊹ z 13 ⊛ z 50 ⊛ z 1555 ⊛ z 409 ⊝ T4 ⊛ z 6 ⊛ z 52 ⊛ z 1555 ⊝ z
    110 ⊛ z 1555 ⊛ z 408 ⊝ z 14 ⊛ z 52 ⊛ z 1555 ⊛ z 409),
(3308, z 979 ⊛ z 3263 ⊹ z 997 ⊛ z 2999 ⊝ z 973 ⊛ z 3266 ⊝ z 978 ⊛ z 3267 ⊝ z 995 ⊛ z 2985 ⊝ z 999
    ⊛ z 2993),
(3309, z 98 ⊛ z 3086 ⊹ z 99 ⊛ z 3091 ⊹ ig11 ⊛ z 98 ⊛ z 3078 ⊹ ig22 ⊛ z 99 ⊛ z 3089 ⊹ ig31 ⊛ z 98 ⊛
    z 3081 ⊝ mg ⊛ (z 200 ⊛ z 3105 ⊹ z 201 ⊛ z 3107 ⊝ z 205 ⊛ z 3100)),
(3310, z 3309 ⊹ z 902 ⊛ z 3230 ⊹ z 903 ⊛ z 3233 ⊹ z 906 ⊛ z 3237 ⊝ z 907 ⊛ z 3239),
(3311, z 60 ⊛ z 793 ⊹ z 784 ⊛ z 1326 ⊹ id11 ⊛ z 60 ⊛ z 63 ⊹ id11 ⊛ z 60 ⊛ z 1326),
(3312, id11 ⊛ z 60 ⊛ z 64 ⊹ id11 ⊛ z 61 ⊛ z 1326 ⊹ z 43 ⊛ z 58 ⊛ z 793 ⊹ z 43 ⊛ z 784 ⊛ z 1328),
(3313, id11 ⊛ z 60 ⊛ z 65 ⊝ id11 ⊛ z 62 ⊛ z 1326 ⊝ z 7 ⊛ z 48 ⊛ z 784 ⊝ z 8 ⊛ z 48 ⊛ z 793)]

/-- _mooreriderlean2012.py:6928-7030 -/
def part59 : List (ℕ × E) := [
(3314, z 3311 ⊹ z 544 ⊛ z 3312 ⊹ z 547 ⊛ z 3313 ⊹ z 887 ⊛ z 1335 ⊹ z 926 ⊛ z 1584 ⊹ z 935 ⊛ z 1648
    ⊝ z 888 ⊛ z 1507 ⊝ z 918 ⊛ z 1554),
(3315, z 3314 ⊹ z 538 ⊛ z 3236 ⊹ z 544 ⊛ z 3131 ⊹ z 547 ⊛ z 3232 ⊹ z 549 ⊛ z 3234 ⊹ z 941 ⊛ z 1584
    ⊹ z 944 ⊛ z 1648 ⊹ z 946 ⊛ z 1335 ⊝ z 541 ⊛ z 3238 ⊝ z 940 ⊛ z 1554 ⊝ z 947 ⊛ z 1507),
(3316, z 887 ⊛ z 1336 ⊹ z 935 ⊛ z 1650 ⊝ z 545 ⊛ z 3312 ⊝ z 888 ⊛ z 1504 ⊝ z 918 ⊛ z 1555),
(3317, z 3316 ⊹ z 538 ⊛ z 2980 ⊹ z 544 ⊛ z 2982 ⊹ z 547 ⊛ z 3001 ⊹ z 549 ⊛ z 2983 ⊹ z 954 ⊛ z 1584
    ⊹ z 957 ⊛ z 1335 ⊹ z 961 ⊛ z 1648 ⊝ z 541 ⊛ z 2979 ⊝ z 955 ⊛ z 1554 ⊝ z 958 ⊛ z 1507),
(3318, z 949 ⊛ z 2984 ⊹ z 964 ⊛ z 3315 ⊝ z 950 ⊛ z 3317 ⊝ z 963 ⊛ z 3261),
(3319, z 905 ⊛ z 2999 ⊝ z 973 ⊛ z 2978 ⊝ z 983 ⊛ z 2985),
(3320, z 949 ⊛ z 2986 ⊹ z 960 ⊛ z 3315 ⊝ z 945 ⊛ z 3317 ⊝ z 963 ⊛ z 3262),
(3321, z 978 ⊛ z 2978 ⊹ z 983 ⊛ z 2993 ⊝ z 979 ⊛ z 3004 ⊝ z 982 ⊛ z 2999),
(3322, z 548 ⊛ z 3313 ⊹ z 888 ⊛ z 1506 ⊹ z 926 ⊛ z 1585 ⊹ z 935 ⊛ z 1649 ⊝ z 546 ⊛ z 3312 ⊝ z 887
    ⊛ z 1337 ⊝ z 918 ⊛ z 1556),
(3323, z 3322 ⊹ z 538 ⊛ z 2989 ⊹ z 544 ⊛ z 2991 ⊹ z 547 ⊛ z 2998 ⊹ z 549 ⊛ z 2992 ⊹ z 967 ⊛ z 1584
    ⊹ z 971 ⊛ z 1335 ⊹ z 975 ⊛ z 1648 ⊝ z 541 ⊛ z 2988 ⊝ z 970 ⊛ z 1554 ⊝ z 972 ⊛ z 1507),
(3324, z 903 ⊛ z 1584 ⊹ z 906 ⊛ z 1335 ⊝ z 902 ⊛ z 1554 ⊝ z 907 ⊛ z 1507),
(3325, z 905 ⊛ z 3323 ⊝ z 973 ⊛ z 3324 ⊝ z 981 ⊛ z 2985),
(3326, z 977 ⊛ z 3004 ⊹ z 982 ⊛ z 3323 ⊝ z 978 ⊛ z 3324 ⊝ z 981 ⊛ z 2993),
(3327, z 949 ⊛ z 3002 ⊹ z 965 ⊛ z 3315 ⊝ z 951 ⊛ z 3317 ⊝ z 963 ⊛ z 3265),
(3328, z 905 ⊛ z 2993 ⊝ z 973 ⊛ z 3004 ⊝ z 982 ⊛ z 2985),
(3329, z 977 ⊛ z 2978 ⊹ z 983 ⊛ z 3323 ⊝ z 979 ⊛ z 3324 ⊝ z 981 ⊛ z 2999),
(3330, z 989 ⊛ z 3319 ⊹ z 990 ⊛ z 3318 ⊹ z 993 ⊛ z 3321 ⊹ z 994 ⊛ z 3320 ⊹ z 995 ⊛ z 3325 ⊹ z 996
    ⊛ z 3266 ⊹ z 999 ⊛ z 3326 ⊹ z 1000 ⊛ z 3267 ⊝ z 991 ⊛ z 3328 ⊝ z 992 ⊛ z 3327 ⊝ z 997 ⊛ z 3329
    ⊝ z 998 ⊛ z 3263),
(3331, (z 3330 ⊛ (z 1005 ⊛ z 985 ⊹ z 1022 ⊛ z 987 ⊝ z 1015 ⊛ z 986 ⊝ z 1026 ⊛ z 988) ⊝ z 1001 ⊛ (z
    3006 ⊛ z 985 ⊹ z 3268 ⊛ z 987 ⊹ z 1015 ⊛ (z 3307 ⊝ z 3297) ⊝ z 1026 ⊛ z 3310 ⊝ z 3294 ⊛ z 986
    ⊝ z 3308 ⊛ z 988 ⊝ z 1005 ⊛ (z 3259 ⊝ z 3240) ⊝ z 1022 ⊛ (z 3290 ⊝ z 3271))) ⊘ pow (z 1001) 2),
(3332, z 902 ⊛ z 1565 ⊹ z 906 ⊛ z 1450 ⊝ z 903 ⊛ z 1589 ⊝ z 907 ⊛ z 1514),
(3333, z 163 ⊛ z 43 ⊛ z 1348),
(3334, neg me ⊛ (z 9 ⊛ z 123 ⊛ z 159 ⊹ z 9 ⊛ z 124 ⊛ z 3333 ⊹ z 10 ⊛ z 123 ⊛ z 166 ⊹ z 10 ⊛ z 124
    ⊛ z 159 ⊹ z 158 ⊛ z 43 ⊛ z 125 ⊛ z 1340 ⊝ z 9 ⊛ z 124 ⊛ z 166 ⊝ z 10 ⊛ z 123 ⊛ z 3333 ⊝ z 163
    ⊛ z 9 ⊛ z 43 ⊛ z 123 ⊛ z 1340 ⊝ z 163 ⊛ z 10 ⊛ z 43 ⊛ z 124 ⊛ z 1340) ⊝ mf ⊛ (z 9 ⊛ z 123 ⊛ z
    148 ⊹ z 10 ⊛ z 123 ⊛ z 154 ⊹ z 10 ⊛ z 124 ⊛ z 148 ⊹ d3 ⊛ z 43 ⊛ z 125 ⊛ z 1340 ⊹ d2 ⊛ z 9 ⊛ z
    43 ⊛ z 124 ⊛ z 1348 ⊝ z 9 ⊛ z 124 ⊛ z 154 ⊝ d2 ⊛ z 9 ⊛ z 43 ⊛ z 123 ⊛ z 1340 ⊝ d2 ⊛ z 10 ⊛ z
    43 ⊛ z 123 ⊛ z 1348 ⊝ d2 ⊛ z 10 ⊛ z 43 ⊛ z 124 ⊛ z 1340)),
(3335, z 914 ⊛ z 1512 ⊝ z 545 ⊛ z 3334 ⊝ z 910 ⊛ z 1439 ⊝ z 916 ⊛ z 1564),
(3336, me ⊛ (z 9 ⊛ z 121 ⊛ z 3333 ⊹ z 10 ⊛ z 120 ⊛ z 3333 ⊹ z 10 ⊛ z 121 ⊛ z 159 ⊹ z 163 ⊛ z 9 ⊛ z
    43 ⊛ z 120 ⊛ z 1340 ⊝ z 9 ⊛ z 120 ⊛ z 159 ⊝ z 9 ⊛ z 121 ⊛ z 166 ⊝ z 10 ⊛ z 120 ⊛ z 166 ⊝ z 158
    ⊛ z 43 ⊛ z 122 ⊛ z 1340 ⊝ z 163 ⊛ z 10 ⊛ z 43 ⊛ z 121 ⊛ z 1340) ⊹ mf ⊛ (z 10 ⊛ z 121 ⊛ z 148 ⊹
    d2 ⊛ z 9 ⊛ z 43 ⊛ z 120 ⊛ z 1340 ⊹ d2 ⊛ z 9 ⊛ z 43 ⊛ z 121 ⊛ z 1348 ⊹ d2 ⊛ z 10 ⊛ z 43 ⊛ z 120
    ⊛ z 1348 ⊝ z 9 ⊛ z 120 ⊛ z 148 ⊝ z 9 ⊛ z 121 ⊛ z 154 ⊝ z 10 ⊛ z 120 ⊛ z 154 ⊝ d3 ⊛ z 43 ⊛ z
    122 ⊛ z 1340 ⊝ d2 ⊛ z 10 ⊛ z 43 ⊛ z 121 ⊛ z 1340)),
(3337, z 910 ⊛ z 1512 ⊝ z 545 ⊛ z 3336 ⊝ z 909 ⊛ z 1439 ⊝ z 912 ⊛ z 1564),
(3338, if11 ⊛ z 11 ⊛ z 43 ⊛ z 1348),
(3339, if11 ⊛ z 12 ⊛ z 43 ⊛ z 1348),
(3340, z 90 ⊛ z 3338 ⊹ z 94 ⊛ z 3339 ⊹ z 43 ⊛ z 806 ⊛ z 1348 ⊹ z 43 ⊛ z 815 ⊛ z 1340 ⊹ z 43 ⊛ z
    817 ⊛ z 1348 ⊹ z 43 ⊛ z 840 ⊛ z 1340 ⊹ ie11 ⊛ z 43 ⊛ z 81 ⊛ z 1348 ⊹ ie22 ⊛ z 43 ⊛ z 82 ⊛ z
    1340 ⊹ ie31 ⊛ z 43 ⊛ z 52 ⊛ z 1348 ⊹ if22 ⊛ z 43 ⊛ z 82 ⊛ z 1340 ⊹ z 11 ⊛ z 43 ⊛ z 833 ⊛ z
    1348 ⊹ z 12 ⊛ z 43 ⊛ z 843 ⊛ z 1348 ⊝ n 2 ⊛ me ⊛ (z 159 ⊛ z 3333 ⊹ z 9 ⊛ z 145 ⊛ z 3333 ⊹ z 10
    ⊛ z 126 ⊛ z 3333 ⊹ z 10 ⊛ z 145 ⊛ z 159 ⊹ z 158 ⊛ z 43 ⊛ z 146 ⊛ z 1340 ⊹ z 163 ⊛ z 9 ⊛ z 43 ⊛
    z 126 ⊛ z 1340 ⊝ z 9 ⊛ z 126 ⊛ z 159 ⊝ z 9 ⊛ z 145 ⊛ z 166 ⊝ z 10 ⊛ z 126 ⊛ z 166 ⊝ z 158 ⊛ z
    43 ⊛ z 169 ⊛ z 1340 ⊝ z 163 ⊛ z 43 ⊛ z 166 ⊛ z 1340 ⊝ z 163 ⊛ z 10 ⊛ z 43 ⊛ z 145 ⊛ z 1340) ⊝
    n 2 ⊛ mf ⊛ (z 10 ⊛ z 145 ⊛ z 148 ⊹ d2 ⊛ z 43 ⊛ z 148 ⊛ z 1348 ⊹ d3 ⊛ z 43 ⊛ z 146 ⊛ z 1340 ⊹
    d2 ⊛ z 9 ⊛ z 43 ⊛ z 126 ⊛ z 1340 ⊹ d2 ⊛ z 9 ⊛ z 43 ⊛ z 145 ⊛ z 1348 ⊹ d2 ⊛ z 10 ⊛ z 43 ⊛ z 126
    ⊛ z 1348 ⊝ z 9 ⊛ z 126 ⊛ z 148 ⊝ z 9 ⊛ z 145 ⊛ z 154 ⊝ z 10 ⊛ z 126 ⊛ z 154 ⊝ d2 ⊛ z 43 ⊛ z
    154 ⊛ z 1340 ⊝ d3 ⊛ z 43 ⊛ z 157 ⊛ z 1340 ⊝ d2 ⊛ z 10 ⊛ z 43 ⊛ z 145 ⊛ z 1340)),
(3341, if22 ⊛ z 43 ⊛ z 83 ⊛ z 1340),
(3342, z 542 ⊛ z 3334 ⊹ z 916 ⊛ z 1512 ⊝ z 539 ⊛ z 3336 ⊝ z 545 ⊛ z 3340 ⊝ z 550 ⊛ z 3341 ⊝ z 912
    ⊛ z 1439 ⊝ z 919 ⊛ z 1564 ⊝ z 936 ⊛ z 1668),
(3343, neg (z 923) ⊛ z 1564 ⊝ z 937 ⊛ z 1668 ⊝ z 43 ⊛ z 545 ⊛ z 841 ⊛ z 1340),
(3344, z 542 ⊛ z 3335 ⊹ z 958 ⊛ z 1512 ⊝ z 539 ⊛ z 3337 ⊝ z 545 ⊛ z 3342 ⊝ z 550 ⊛ z 3343 ⊝ z 921
    ⊛ z 1564 ⊝ z 955 ⊛ z 1564 ⊝ z 957 ⊛ z 1439 ⊝ z 961 ⊛ z 1668),
(3345, z 906 ⊛ z 1450 ⊹ z 924 ⊛ z 1565 ⊝ z 907 ⊛ z 1514 ⊝ z 932 ⊛ z 1589),
(3346, z 907 ⊛ z 1512 ⊝ z 906 ⊛ z 1439 ⊝ z 924 ⊛ z 1564),
(3347, z 921 ⊛ z 1565 ⊝ z 929 ⊛ z 1589),
(3348, z 158 ⊛ z 1441 ⊝ d2 ⊛ z 1443 ⊝ l4 ⊛ z 1443),
(3349, (me ⊛ z 3348 ⊹ mf ⊛ z 1444) ⊛ (z 9 ⊛ z 124 ⊝ z 10 ⊛ z 123) ⊝ (me ⊛ z 161 ⊹ mf ⊛ z 150) ⊛ (z
    9 ⊛ z 123 ⊹ z 10 ⊛ z 124)),
(3350, z 158 ⊛ z 1418 ⊝ d2 ⊛ z 1419 ⊝ l4 ⊛ z 1419),
(3351, neg me ⊛ (z 158 ⊛ z 125 ⊛ z 1414 ⊹ z 9 ⊛ z 123 ⊛ z 160 ⊹ z 10 ⊛ z 123 ⊛ z 164 ⊹ z 10 ⊛ z
    123 ⊛ z 3350 ⊹ z 10 ⊛ z 124 ⊛ z 160 ⊝ z 9 ⊛ z 124 ⊛ z 164 ⊝ z 9 ⊛ z 124 ⊛ z 3350 ⊝ z 163 ⊛ z 9
    ⊛ z 123 ⊛ z 1414 ⊝ z 163 ⊛ z 10 ⊛ z 124 ⊛ z 1414) ⊝ mf ⊛ (d3 ⊛ z 125 ⊛ z 1414 ⊹ z 9 ⊛ z 123 ⊛
    z 149 ⊹ z 10 ⊛ z 123 ⊛ z 152 ⊹ z 10 ⊛ z 123 ⊛ z 1420 ⊹ z 10 ⊛ z 124 ⊛ z 149 ⊝ z 9 ⊛ z 124 ⊛ z
    152 ⊝ z 9 ⊛ z 124 ⊛ z 1420 ⊝ d2 ⊛ z 9 ⊛ z 123 ⊛ z 1414 ⊝ d2 ⊛ z 10 ⊛ z 124 ⊛ z 1414)),
(3352, z 3349 ⊹ z 548 ⊛ z 3351 ⊹ z 910 ⊛ z 1450 ⊹ z 916 ⊛ z 1565 ⊝ z 546 ⊛ z 3334 ⊝ z 914 ⊛ z 1514
    ⊝ z 915 ⊛ z 1589),
(3353, me ⊛ (z 10 ⊛ z 121 ⊛ z 160 ⊹ z 163 ⊛ z 9 ⊛ z 120 ⊛ z 1414 ⊝ z 158 ⊛ z 122 ⊛ z 1414 ⊝ z 9 ⊛
    z 120 ⊛ z 160 ⊝ z 9 ⊛ z 121 ⊛ z 164 ⊝ z 9 ⊛ z 121 ⊛ z 3350 ⊝ z 10 ⊛ z 120 ⊛ z 164 ⊝ z 10 ⊛ z
    120 ⊛ z 3350 ⊝ z 163 ⊛ z 10 ⊛ z 121 ⊛ z 1414) ⊹ mf ⊛ (z 10 ⊛ z 121 ⊛ z 149 ⊹ d2 ⊛ z 9 ⊛ z 120
    ⊛ z 1414 ⊝ d3 ⊛ z 122 ⊛ z 1414 ⊝ z 9 ⊛ z 120 ⊛ z 149 ⊝ z 9 ⊛ z 121 ⊛ z 152 ⊝ z 9 ⊛ z 121 ⊛ z
    1420 ⊝ z 10 ⊛ z 120 ⊛ z 152 ⊝ z 10 ⊛ z 120 ⊛ z 1420 ⊝ d2 ⊛ z 10 ⊛ z 121 ⊛ z 1414)),
(3354, (me ⊛ z 3348 ⊹ mf ⊛ z 1444) ⊛ (z 9 ⊛ z 121 ⊹ z 10 ⊛ z 120) ⊹ (me ⊛ z 161 ⊹ mf ⊛ z 150) ⊛ (z
    9 ⊛ z 120 ⊝ z 10 ⊛ z 121)),
(3355, z 548 ⊛ z 3353 ⊹ z 909 ⊛ z 1450 ⊹ z 912 ⊛ z 1565 ⊝ z 3354 ⊝ z 546 ⊛ z 3336 ⊝ z 910 ⊛ z 1514
    ⊝ z 911 ⊛ z 1589),
(3356, z 93 ⊛ z 3338 ⊹ z 96 ⊛ z 3339 ⊹ z 806 ⊛ z 1443 ⊹ z 811 ⊛ z 1441 ⊹ z 817 ⊛ z 1443 ⊹ z 822 ⊛
    z 1441 ⊹ z 833 ⊛ z 1446 ⊹ z 843 ⊛ z 1445 ⊹ ie11 ⊛ z 43 ⊛ z 75 ⊛ z 1348 ⊹ ie31 ⊛ z 43 ⊛ z 79 ⊛
    z 1348 ⊹ me ⊛ z 3348 ⊛ (z 159 ⊹ z 9 ⊛ z 145 ⊹ z 10 ⊛ z 126) ⊹ mf ⊛ z 1444 ⊛ (z 148 ⊹ z 9 ⊛ z
    145 ⊹ z 10 ⊛ z 126) ⊹ me ⊛ z 161 ⊛ (z 9 ⊛ z 126 ⊝ z 3333 ⊝ z 10 ⊛ z 145) ⊹ mf ⊛ z 150 ⊛ (z 9 ⊛
    z 126 ⊝ z 10 ⊛ z 145 ⊝ d2 ⊛ z 43 ⊛ z 1348))]

end BP.EL
