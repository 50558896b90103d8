import Verif.Model.EvalLinear

/-!
# The body of `eval_linear`, part 4

Generated by tools/gen_eval_linear.py from _mooreriderlean2012.py:4496-5746.  Do not edit.
-/

namespace BP.EL

open E

/-- _mooreriderlean2012.py:4496-4619 -/
def part36 : List (ℕ × E) := [
(2412, z 2290 ⊹ z 941 ⊛ z 2403 ⊹ z 947 ⊛ z 2411 ⊹ z 2292 ⊛ z 667 ⊹ z 2402 ⊛ z 668 ⊹ z 2404 ⊛ z 669
    ⊹ z 2407 ⊛ z 665 ⊝ z 940 ⊛ z 2400 ⊝ z 944 ⊛ z 2405 ⊝ z 946 ⊛ z 2408 ⊝ z 2410 ⊛ z 666),
(2413, z 1132 ⊹ z 547 ⊛ z 1159 ⊝ z 52 ⊛ z 1540 ⊝ z 78 ⊛ z 1576 ⊝ z 4 ⊛ z 5 ⊛ z 43 ⊛ z 544),
(2414, z 48 ⊹ z 50 ⊛ z 1540 ⊹ z 4 ⊛ z 6 ⊛ z 43 ⊛ z 544),
(2415, z 1061 ⊹ z 547 ⊛ z 1156 ⊝ z 48 ⊛ z 1576 ⊝ z 52 ⊛ z 1540 ⊝ z 4 ⊛ z 5 ⊛ z 43 ⊛ z 544),
(2416, z 2243 ⊹ l6 ⊛ z 2229 ⊹ z 183 ⊛ z 1490 ⊹ z 544 ⊛ z 2076 ⊹ z 547 ⊛ (n 2 ⊛ z 2058 ⊹ l6 ⊛ z
    2052) ⊝ z 182 ⊛ z 1187 ⊝ z 210 ⊛ z 1576 ⊝ z 211 ⊛ z 1540 ⊝ z 538 ⊛ z 2061 ⊝ z 541 ⊛ z 2047),
(2417, z 2255 ⊹ z 2257 ⊹ z 188 ⊛ z 1490 ⊹ z 538 ⊛ z 2062 ⊹ z 541 ⊛ z 2048 ⊹ z 544 ⊛ (z 2071 ⊹ z
    2072) ⊹ z 547 ⊛ (z 2053 ⊹ z 2055) ⊝ z 187 ⊛ z 1187 ⊝ z 213 ⊛ z 1576 ⊝ z 214 ⊛ z 1540),
(2418, z 2264 ⊹ z 193 ⊛ z 1490 ⊹ z 544 ⊛ z 2074 ⊹ z 547 ⊛ (z 2056 ⊝ l5 ⊛ z 2052) ⊝ l5 ⊛ z 2229 ⊝ z
    192 ⊛ z 1187 ⊝ z 216 ⊛ z 1576 ⊝ z 217 ⊛ z 1540 ⊝ z 538 ⊛ z 2063 ⊝ z 541 ⊛ z 2049),
(2419, z 2267 ⊹ z 121 ⊛ z 1187 ⊹ z 124 ⊛ z 1490 ⊹ l1 ⊛ z 547 ⊛ z 1156 ⊹ z 1 ⊛ z 4 ⊛ z 541 ⊹ z 2 ⊛
    z 4 ⊛ z 538 ⊝ z 128 ⊛ z 1576 ⊝ z 130 ⊛ z 1540 ⊝ z 544 ⊛ z 2083),
(2420, z 125 ⊛ z 1490 ⊹ z 132 ⊛ z 1576 ⊹ z 544 ⊛ z 2084 ⊹ z 1 ⊛ z 3 ⊛ z 5 ⊛ z 541 ⊹ z 2 ⊛ z 3 ⊛ z
    5 ⊛ z 538 ⊝ l1 ⊛ z 1126 ⊝ z 122 ⊛ z 1187 ⊝ z 138 ⊛ z 1540 ⊝ n 2 ⊛ l1 ⊛ z 547 ⊛ z 1152),
(2421, l2 ⊛ z 1126 ⊹ z 123 ⊛ z 1490 ⊹ z 544 ⊛ z 2082 ⊹ n 2 ⊛ l2 ⊛ z 547 ⊛ z 1152 ⊝ z 120 ⊛ z 1187
    ⊝ z 135 ⊛ z 1576 ⊝ z 137 ⊛ z 1540 ⊝ z 1 ⊛ z 3 ⊛ z 6 ⊛ z 541 ⊝ z 2 ⊛ z 3 ⊛ z 6 ⊛ z 538),
(2422, z 2221 ⊹ z 14 ⊛ z 547 ⊛ z 1156 ⊹ z 43 ⊛ z 544 ⊛ z 2065 ⊝ z 110 ⊛ z 1540 ⊝ z 111 ⊛ z 1576),
(2423, z 123 ⊛ z 1490 ⊹ z 126 ⊛ z 1540 ⊝ z 120 ⊛ z 1187 ⊝ z 544 ⊛ z 1067 ⊝ z 1 ⊛ z 3 ⊛ z 6 ⊛ z 541
    ⊝ z 2 ⊛ z 3 ⊛ z 6 ⊛ z 538),
(2424, d1 ⊛ z 1061 ⊹ z 121 ⊛ z 1187 ⊹ z 124 ⊛ z 1490 ⊹ d1 ⊛ z 547 ⊛ z 1156 ⊹ z 1 ⊛ z 4 ⊛ z 541 ⊹ z
    2 ⊛ z 4 ⊛ z 538 ⊝ z 143 ⊛ z 1576 ⊝ z 145 ⊛ z 1540 ⊝ z 544 ⊛ z 1066),
(2425, z 125 ⊛ z 1490 ⊹ z 141 ⊛ z 1576 ⊹ z 544 ⊛ z 1081 ⊹ z 1 ⊛ z 3 ⊛ z 5 ⊛ z 541 ⊹ z 2 ⊛ z 3 ⊛ z
    5 ⊛ z 538 ⊝ d1 ⊛ z 1126 ⊝ z 122 ⊛ z 1187 ⊝ z 146 ⊛ z 1540 ⊝ n 2 ⊛ d1 ⊛ z 547 ⊛ z 1152),
(2426, z 167 ⊛ z 1576 ⊹ z 169 ⊛ z 1540 ⊝ z 158 ⊛ z 1127 ⊝ z 158 ⊛ z 547 ⊛ z 1153 ⊝ z 158 ⊛ z 29 ⊛
    z 43 ⊛ z 544),
(2427, z 163 ⊛ z 1127 ⊹ z 163 ⊛ z 547 ⊛ z 1153 ⊹ z 163 ⊛ z 29 ⊛ z 43 ⊛ z 544 ⊝ z 164 ⊛ z 1576 ⊝ z
    166 ⊛ z 1540),
(2428, z 3 ⊛ z 10 ⊹ z 4 ⊛ z 6 ⊛ z 9),
(2429, z 2273 ⊹ z 547 ⊛ z 2111 ⊝ z 159 ⊛ z 1540 ⊝ z 160 ⊛ z 1576 ⊝ z 544 ⊛ z 2085),
(2430, z 155 ⊛ z 1576 ⊹ z 157 ⊛ z 1540 ⊝ d3 ⊛ z 1127 ⊝ d3 ⊛ z 547 ⊛ z 1153 ⊝ d3 ⊛ z 29 ⊛ z 43 ⊛ z
    544),
(2431, d2 ⊛ z 1127 ⊹ d2 ⊛ z 547 ⊛ z 1153 ⊹ d2 ⊛ z 29 ⊛ z 43 ⊛ z 544 ⊝ z 152 ⊛ z 1576 ⊝ z 154 ⊛ z
    1540),
(2432, z 1135 ⊹ z 547 ⊛ z 1161 ⊝ z 148 ⊛ z 1540 ⊝ z 149 ⊛ z 1576 ⊝ z 544 ⊛ z 1074),
(2433, T7 ⊛ z 2413 ⊹ z 403 ⊛ z 3 ⊛ z 119 ⊹ T4 ⊛ z 5 ⊛ z 2414 ⊹ T4 ⊛ z 6 ⊛ z 2415 ⊹ z 406 ⊛ (z 106
    ⊛ z 2416 ⊹ z 107 ⊛ z 2417 ⊹ z 108 ⊛ z 2418 ⊹ z 744 ⊛ z 2065 ⊹ z 745 ⊛ z 2067 ⊹ z 746 ⊛ z 2066)
    ⊹ z 2422 ⊛ z 408 ⊹ z 13 ⊛ z 2414 ⊛ z 409 ⊹ z 14 ⊛ z 2415 ⊛ z 409 ⊝ T7 ⊛ z 2415 ⊝ z 402 ⊛ (z 42
    ⊛ z 2421 ⊹ z 4 ⊛ z 5 ⊛ z 705 ⊝ z 3 ⊛ z 704 ⊝ z 4 ⊛ z 2419 ⊝ z 32 ⊛ z 2420 ⊝ z 4 ⊛ z 6 ⊛ z 703)
    ⊝ z 404 ⊛ (z 42 ⊛ z 2423 ⊹ z 4 ⊛ z 5 ⊛ z 716 ⊹ z 4 ⊛ z 5 ⊛ z 719 ⊝ z 3 ⊛ z 715 ⊝ z 4 ⊛ z 2424
    ⊝ z 32 ⊛ z 2425 ⊝ z 32 ⊛ z 2426 ⊝ z 717 ⊛ z 2428 ⊝ z 718 ⊛ z 1339 ⊝ z 733 ⊛ z 2427 ⊝ z 734 ⊛ z
    2429 ⊝ z 4 ⊛ z 6 ⊛ z 720) ⊝ z 405 ⊛ (z 42 ⊛ z 2423 ⊹ z 4 ⊛ z 5 ⊛ z 716 ⊹ z 4 ⊛ z 5 ⊛ z 737 ⊝ z
    3 ⊛ z 715 ⊝ z 4 ⊛ z 2424 ⊝ z 32 ⊛ z 2425 ⊝ z 32 ⊛ z 2430 ⊝ z 733 ⊛ z 2431 ⊝ z 734 ⊛ z 2432 ⊝ z
    735 ⊛ z 2428 ⊝ z 736 ⊛ z 1339 ⊝ z 4 ⊛ z 6 ⊛ z 720)),
(2434, z 791 ⊛ z 1126 ⊹ n 2 ⊛ z 547 ⊛ z 791 ⊛ z 1152 ⊹ z 3 ⊛ z 43 ⊛ z 544 ⊛ z 791 ⊝ z 921 ⊛ z 1540
    ⊝ z 929 ⊛ z 1576),
(2435, z 2434 ⊹ z 542 ⊛ z 2410 ⊹ z 947 ⊛ z 1484 ⊝ z 539 ⊛ z 2407 ⊝ z 545 ⊛ z 2292 ⊝ z 550 ⊛ z 2404
    ⊝ z 940 ⊛ z 1541 ⊝ z 944 ⊛ z 1624 ⊝ z 946 ⊛ z 1188),
(2436, z 854 ⊛ z 2221 ⊹ z 859 ⊛ z 2232 ⊹ z 864 ⊛ z 2229 ⊹ mg ⊛ (z 205 ⊛ (z 2243 ⊹ l6 ⊛ z 2229) ⊝ z
    200 ⊛ (z 2255 ⊹ z 2257) ⊝ z 201 ⊛ (z 2264 ⊝ l5 ⊛ z 2229))),
(2437, z 2436 ⊹ z 538 ⊛ z 2064 ⊹ z 541 ⊛ z 2050 ⊹ z 544 ⊛ z 2105 ⊹ z 547 ⊛ z 2104 ⊹ z 907 ⊛ z 1490
    ⊝ z 906 ⊛ z 1187 ⊝ z 924 ⊛ z 1540 ⊝ z 932 ⊛ z 1576),
(2438, z 950 ⊛ z 2107 ⊹ z 960 ⊛ z 2435 ⊝ z 945 ⊛ z 2103 ⊝ z 964 ⊛ z 2437),
(2439, z 805 ⊛ z 1134 ⊹ z 810 ⊛ z 1132 ⊹ z 819 ⊛ z 1134 ⊹ z 824 ⊛ z 1132 ⊹ z 836 ⊛ z 1138 ⊹ z 845
    ⊛ z 1137 ⊹ n 2 ⊛ z 74 ⊛ z 2123 ⊹ n 2 ⊛ z 80 ⊛ z 2124 ⊹ ie11 ⊛ z 74 ⊛ z 1190 ⊹ ie31 ⊛ z 80 ⊛ z
    1190 ⊹ if11 ⊛ z 92 ⊛ z 1193 ⊹ if11 ⊛ z 97 ⊛ z 1192 ⊹ me ⊛ z 2109 ⊛ (z 162 ⊹ z 9 ⊛ z 147) ⊹ mf
    ⊛ z 1191 ⊛ (z 151 ⊹ z 9 ⊛ z 147) ⊹ me ⊛ z 161 ⊛ (z 2273 ⊹ d1 ⊛ z 9 ⊛ z 1061) ⊹ mf ⊛ z 150 ⊛ (z
    1135 ⊹ d1 ⊛ z 9 ⊛ z 1061)),
(2440, z 2439 ⊹ z 544 ⊛ z 2127 ⊹ z 547 ⊛ z 2126 ⊹ z 899 ⊛ z 1187 ⊹ z 900 ⊛ z 1490 ⊝ z 538 ⊛ z 2115
    ⊝ z 541 ⊛ z 2110 ⊝ z 922 ⊛ z 1540 ⊝ z 930 ⊛ z 1576),
(2441, z 2440 ⊹ z 543 ⊛ z 2410 ⊹ z 548 ⊛ z 2402 ⊹ z 551 ⊛ z 2404 ⊹ z 940 ⊛ z 1542 ⊹ z 946 ⊛ z 1196
    ⊝ z 540 ⊛ z 2407 ⊝ z 546 ⊛ z 2292 ⊝ z 941 ⊛ z 1577 ⊝ z 944 ⊛ z 1623 ⊝ z 947 ⊛ z 1487),
(2442, z 950 ⊛ z 2137 ⊹ z 965 ⊛ z 2435 ⊝ z 951 ⊛ z 2103 ⊝ z 964 ⊛ z 2441),
(2443, z 951 ⊛ z 2107 ⊹ z 960 ⊛ z 2441 ⊝ z 945 ⊛ z 2137 ⊝ z 965 ⊛ z 2437),
(2444, z 983 ⊛ z 2438 ⊹ z 997 ⊛ z 2078 ⊝ z 905 ⊛ z 2442 ⊝ z 982 ⊛ z 2443 ⊝ z 999 ⊛ z 2139),
(2445, z 75 ⊛ z 2198 ⊹ z 79 ⊛ z 2207 ⊹ z 93 ⊛ z 2214 ⊹ z 96 ⊛ z 2220 ⊹ z 1190 ⊛ z 807 ⊹ z 1190 ⊛ z
    821 ⊹ z 1190 ⊛ z 829 ⊹ z 1192 ⊛ z 847 ⊹ z 1192 ⊛ z 848 ⊹ z 1193 ⊛ z 837 ⊹ z 1193 ⊛ z 850 ⊹
    ie11 ⊛ z 75 ⊛ z 2185 ⊹ ie31 ⊛ z 75 ⊛ z 2193 ⊹ ie31 ⊛ z 79 ⊛ z 2185 ⊹ ie33 ⊛ z 79 ⊛ z 2193 ⊹
    if11 ⊛ z 93 ⊛ z 2212 ⊹ if11 ⊛ z 96 ⊛ z 2219 ⊹ n 2 ⊛ z 29 ⊛ (z 30 ⊹ z 69) ⊛ z 812 ⊹ n 2 ⊛ z 29
    ⊛ (z 30 ⊹ z 69) ⊛ z 826 ⊹ n 2 ⊛ z 29 ⊛ (z 30 ⊹ z 69) ⊛ z 828 ⊹ me ⊛ z 161 ⊛ (z 2278 ⊹ z 9 ⊛ z
    2276 ⊝ z 10 ⊛ z 2275) ⊹ me ⊛ z 2109 ⊛ (z 384 ⊹ z 9 ⊛ z 373 ⊝ z 10 ⊛ z 372) ⊹ mf ⊛ z 150 ⊛ (z
    2282 ⊹ z 9 ⊛ z 2276 ⊝ z 10 ⊛ z 2275) ⊹ mf ⊛ z 1191 ⊛ (z 378 ⊹ z 9 ⊛ z 373 ⊝ z 10 ⊛ z 372)),
(2446, z 2445 ⊹ z 543 ⊛ z 2289 ⊹ z 548 ⊛ z 2287 ⊹ z 551 ⊛ z 2288 ⊹ z 1196 ⊛ z 913 ⊹ z 1542 ⊛ z 925
    ⊝ z 540 ⊛ z 2285 ⊝ z 546 ⊛ z 2286 ⊝ z 1487 ⊛ z 917 ⊝ z 1577 ⊛ z 933 ⊝ z 1623 ⊛ z 938),
(2447, z 2446 ⊹ z 967 ⊛ z 2403 ⊹ z 972 ⊛ z 2411 ⊹ z 2116 ⊛ z 665 ⊹ z 2119 ⊛ z 667 ⊹ z 2120 ⊛ z 669
    ⊹ z 2133 ⊛ z 668 ⊝ z 970 ⊛ z 2400 ⊝ z 971 ⊛ z 2408 ⊝ z 975 ⊛ z 2405 ⊝ z 2113 ⊛ z 666),
(2448, z 52 ⊛ z 1542 ⊹ z 548 ⊛ z 1159 ⊹ z 4 ⊛ z 5 ⊛ z 43 ⊛ z 546 ⊹ n 2 ⊛ z 29 ⊛ (z 30 ⊹ z 69) ⊝ z
    78 ⊛ z 1577),
(2449, neg (z 50) ⊛ z 1542 ⊝ z 4 ⊛ z 6 ⊛ z 43 ⊛ z 546),
(2450, z 52 ⊛ z 1542 ⊹ z 548 ⊛ z 1156 ⊹ z 4 ⊛ z 5 ⊛ z 43 ⊛ z 546 ⊝ z 48 ⊛ z 1577),
(2451, z 182 ⊛ z 1196 ⊹ z 211 ⊛ z 1542 ⊹ z 540 ⊛ z 2061 ⊹ z 543 ⊛ z 2047 ⊹ z 548 ⊛ (n 2 ⊛ z 2058 ⊹
    l6 ⊛ z 2052) ⊝ z 183 ⊛ z 1487 ⊝ z 210 ⊛ z 1577 ⊝ z 546 ⊛ z 2076),
(2452, z 187 ⊛ z 1196 ⊹ z 214 ⊛ z 1542 ⊹ z 548 ⊛ (z 2053 ⊹ z 2055) ⊝ z 188 ⊛ z 1487 ⊝ z 213 ⊛ z
    1577 ⊝ z 540 ⊛ z 2062 ⊝ z 543 ⊛ z 2048 ⊝ z 546 ⊛ (z 2071 ⊹ z 2072)),
(2453, z 192 ⊛ z 1196 ⊹ z 217 ⊛ z 1542 ⊹ z 540 ⊛ z 2063 ⊹ z 543 ⊛ z 2049 ⊹ z 548 ⊛ (z 2056 ⊝ l5 ⊛
    z 2052) ⊝ z 193 ⊛ z 1487 ⊝ z 216 ⊛ z 1577 ⊝ z 546 ⊛ z 2074),
(2454, z 130 ⊛ z 1542 ⊹ z 546 ⊛ z 2083 ⊹ l1 ⊛ z 548 ⊛ z 1156 ⊝ z 121 ⊛ z 1196 ⊝ z 124 ⊛ z 1487 ⊝ z
    128 ⊛ z 1577 ⊝ z 1 ⊛ z 4 ⊛ z 543 ⊝ z 2 ⊛ z 4 ⊛ z 540),
(2455, z 122 ⊛ z 1196 ⊹ z 132 ⊛ z 1577 ⊹ z 138 ⊛ z 1542 ⊝ z 125 ⊛ z 1487 ⊝ z 546 ⊛ z 2084 ⊝ n 2 ⊛
    l1 ⊛ z 548 ⊛ z 1152 ⊝ z 1 ⊛ z 3 ⊛ z 5 ⊛ z 543 ⊝ z 2 ⊛ z 3 ⊛ z 5 ⊛ z 540),
(2456, z 120 ⊛ z 1196 ⊹ z 137 ⊛ z 1542 ⊹ n 2 ⊛ l2 ⊛ z 548 ⊛ z 1152 ⊹ z 1 ⊛ z 3 ⊛ z 6 ⊛ z 543 ⊹ z 2
    ⊛ z 3 ⊛ z 6 ⊛ z 540 ⊝ z 123 ⊛ z 1487 ⊝ z 135 ⊛ z 1577 ⊝ z 546 ⊛ z 2082)]

/-- _mooreriderlean2012.py:4620-4730 -/
def part37 : List (ℕ × E) := [
(2457, z 110 ⊛ z 1542 ⊹ z 14 ⊛ z 548 ⊛ z 1156 ⊝ z 111 ⊛ z 1577 ⊝ z 43 ⊛ z 546 ⊛ z 2065),
(2458, z 120 ⊛ z 1196 ⊹ z 546 ⊛ z 1067 ⊹ z 1 ⊛ z 3 ⊛ z 6 ⊛ z 543 ⊹ z 2 ⊛ z 3 ⊛ z 6 ⊛ z 540 ⊝ z 123
    ⊛ z 1487 ⊝ z 126 ⊛ z 1542),
(2459, z 145 ⊛ z 1542 ⊹ z 546 ⊛ z 1066 ⊹ d1 ⊛ z 548 ⊛ z 1156 ⊝ z 121 ⊛ z 1196 ⊝ z 124 ⊛ z 1487 ⊝ z
    143 ⊛ z 1577 ⊝ z 1 ⊛ z 4 ⊛ z 543 ⊝ z 2 ⊛ z 4 ⊛ z 540),
(2460, z 122 ⊛ z 1196 ⊹ z 141 ⊛ z 1577 ⊹ z 146 ⊛ z 1542 ⊝ z 125 ⊛ z 1487 ⊝ z 546 ⊛ z 1081 ⊝ n 2 ⊛
    d1 ⊛ z 548 ⊛ z 1152 ⊝ z 1 ⊛ z 3 ⊛ z 5 ⊛ z 543 ⊝ z 2 ⊛ z 3 ⊛ z 5 ⊛ z 540),
(2461, z 167 ⊛ z 1577 ⊹ z 158 ⊛ z 29 ⊛ z 43 ⊛ z 546 ⊝ z 169 ⊛ z 1542 ⊝ z 158 ⊛ z 548 ⊛ z 1153),
(2462, z 2109 ⊹ z 159 ⊛ z 1542 ⊹ z 546 ⊛ z 2085 ⊹ z 548 ⊛ z 2111 ⊝ z 160 ⊛ z 1577),
(2463, z 166 ⊛ z 1542 ⊹ z 163 ⊛ z 548 ⊛ z 1153 ⊝ z 164 ⊛ z 1577 ⊝ z 163 ⊛ z 29 ⊛ z 43 ⊛ z 546),
(2464, z 155 ⊛ z 1577 ⊹ d3 ⊛ z 29 ⊛ z 43 ⊛ z 546 ⊝ z 157 ⊛ z 1542 ⊝ d3 ⊛ z 548 ⊛ z 1153),
(2465, z 154 ⊛ z 1542 ⊹ d2 ⊛ z 548 ⊛ z 1153 ⊝ z 152 ⊛ z 1577 ⊝ d2 ⊛ z 29 ⊛ z 43 ⊛ z 546),
(2466, z 1191 ⊹ z 148 ⊛ z 1542 ⊹ z 546 ⊛ z 1074 ⊹ z 548 ⊛ z 1161 ⊝ z 149 ⊛ z 1577),
(2467, T7 ⊛ z 2448 ⊹ T4 ⊛ z 5 ⊛ z 2449 ⊹ T4 ⊛ z 6 ⊛ z 2450 ⊹ z 406 ⊛ (z 106 ⊛ z 2451 ⊹ z 107 ⊛ z
    2452 ⊹ z 108 ⊛ z 2453 ⊹ z 750 ⊛ z 2065 ⊹ z 751 ⊛ z 2067 ⊹ z 752 ⊛ z 2066) ⊹ z 2457 ⊛ z 408 ⊹ z
    13 ⊛ z 2449 ⊛ z 409 ⊹ z 14 ⊛ z 2450 ⊛ z 409 ⊝ T7 ⊛ z 2450 ⊝ z 402 ⊛ (z 42 ⊛ z 2456 ⊹ z 4 ⊛ z 5
    ⊛ z 711 ⊝ z 3 ⊛ z 710 ⊝ z 4 ⊛ z 2454 ⊝ z 32 ⊛ z 2455 ⊝ z 4 ⊛ z 6 ⊛ z 709) ⊝ z 404 ⊛ (z 42 ⊛ z
    2458 ⊹ z 4 ⊛ z 5 ⊛ z 730 ⊹ z 4 ⊛ z 5 ⊛ z 732 ⊝ z 3 ⊛ z 729 ⊝ z 4 ⊛ z 2459 ⊝ z 32 ⊛ z 2460 ⊝ z
    32 ⊛ z 2461 ⊝ z 727 ⊛ z 1339 ⊝ z 731 ⊛ z 2428 ⊝ z 733 ⊛ z 2463 ⊝ z 734 ⊛ z 2462 ⊝ z 4 ⊛ z 6 ⊛
    z 728) ⊝ z 405 ⊛ (z 42 ⊛ z 2458 ⊹ z 4 ⊛ z 5 ⊛ z 730 ⊹ z 4 ⊛ z 5 ⊛ z 743 ⊝ z 3 ⊛ z 729 ⊝ z 4 ⊛
    z 2459 ⊝ z 32 ⊛ z 2460 ⊝ z 32 ⊛ z 2464 ⊝ z 733 ⊛ z 2465 ⊝ z 734 ⊛ z 2466 ⊝ z 741 ⊛ z 1339 ⊝ z
    742 ⊛ z 2428 ⊝ z 4 ⊛ z 6 ⊛ z 728)),
(2468, z 950 ⊛ z 2106 ⊹ z 973 ⊛ z 2435 ⊝ z 945 ⊛ z 2121 ⊝ z 978 ⊛ z 2437),
(2469, z 950 ⊛ z 2134 ⊹ z 979 ⊛ z 2435 ⊝ z 951 ⊛ z 2121 ⊝ z 978 ⊛ z 2441),
(2470, z 951 ⊛ z 2106 ⊹ z 973 ⊛ z 2441 ⊝ z 945 ⊛ z 2134 ⊝ z 979 ⊛ z 2437),
(2471, z 983 ⊛ z 2468 ⊹ z 1013 ⊛ z 2078 ⊝ z 905 ⊛ z 2469 ⊝ z 982 ⊛ z 2470 ⊝ z 1014 ⊛ z 2139),
(2472, z 53 ⊛ (z 2163 ⊹ id22 ⊛ z 2158)),
(2473, z 2472 ⊹ z 542 ⊛ z 2289 ⊹ z 1484 ⊛ z 917 ⊝ z 539 ⊛ z 2285 ⊝ z 545 ⊛ z 2286 ⊝ z 550 ⊛ z 2288
    ⊝ z 1188 ⊛ z 913 ⊝ z 1541 ⊛ z 925 ⊝ z 1624 ⊛ z 938),
(2474, z 2473 ⊹ z 954 ⊛ z 2403 ⊹ z 958 ⊛ z 2411 ⊹ z 2091 ⊛ z 665 ⊹ z 2101 ⊛ z 667 ⊹ z 2102 ⊛ z 669
    ⊹ z 2136 ⊛ z 668 ⊝ z 955 ⊛ z 2400 ⊝ z 957 ⊛ z 2408 ⊝ z 961 ⊛ z 2405 ⊝ z 2088 ⊛ z 666),
(2475, z 51 ⊛ z 1541 ⊹ z 3 ⊛ z 43 ⊛ z 545),
(2476, neg (z 51) ⊛ z 1541 ⊝ z 3 ⊛ z 43 ⊛ z 545),
(2477, z 50 ⊛ z 1541 ⊝ z 4 ⊛ z 6 ⊛ z 43 ⊛ z 545),
(2478, z 183 ⊛ z 1484 ⊹ z 539 ⊛ z 2061 ⊹ z 542 ⊛ z 2047 ⊝ z 182 ⊛ z 1188 ⊝ z 211 ⊛ z 1541 ⊝ z 545
    ⊛ z 2076),
(2479, z 188 ⊛ z 1484 ⊝ z 187 ⊛ z 1188 ⊝ z 214 ⊛ z 1541 ⊝ z 539 ⊛ z 2062 ⊝ z 542 ⊛ z 2048 ⊝ z 545
    ⊛ (z 2071 ⊹ z 2072)),
(2480, z 193 ⊛ z 1484 ⊹ z 539 ⊛ z 2063 ⊹ z 542 ⊛ z 2049 ⊝ z 192 ⊛ z 1188 ⊝ z 217 ⊛ z 1541 ⊝ z 545
    ⊛ z 2074),
(2481, z 121 ⊛ z 1188 ⊹ z 124 ⊛ z 1484 ⊹ z 545 ⊛ z 2083 ⊝ z 130 ⊛ z 1541 ⊝ z 1 ⊛ z 4 ⊛ z 542 ⊝ z 2
    ⊛ z 4 ⊛ z 539),
(2482, z 125 ⊛ z 1484 ⊝ z 122 ⊛ z 1188 ⊝ z 138 ⊛ z 1541 ⊝ z 545 ⊛ z 2084 ⊝ z 1 ⊛ z 3 ⊛ z 5 ⊛ z 542
    ⊝ z 2 ⊛ z 3 ⊛ z 5 ⊛ z 539),
(2483, z 123 ⊛ z 1484 ⊹ z 1 ⊛ z 3 ⊛ z 6 ⊛ z 542 ⊹ z 2 ⊛ z 3 ⊛ z 6 ⊛ z 539 ⊝ z 120 ⊛ z 1188 ⊝ z 137
    ⊛ z 1541 ⊝ z 545 ⊛ z 2082),
(2484, z 121 ⊛ z 1188 ⊹ z 124 ⊛ z 1484 ⊹ z 545 ⊛ z 1066 ⊝ z 145 ⊛ z 1541 ⊝ z 1 ⊛ z 4 ⊛ z 542 ⊝ z 2
    ⊛ z 4 ⊛ z 539),
(2485, z 125 ⊛ z 1484 ⊝ z 122 ⊛ z 1188 ⊝ z 146 ⊛ z 1541 ⊝ z 545 ⊛ z 1081 ⊝ z 1 ⊛ z 3 ⊛ z 5 ⊛ z 542
    ⊝ z 2 ⊛ z 3 ⊛ z 5 ⊛ z 539),
(2486, z 169 ⊛ z 1541 ⊹ z 158 ⊛ z 29 ⊛ z 43 ⊛ z 545),
(2487, z 123 ⊛ z 1484 ⊹ z 126 ⊛ z 1541 ⊹ z 545 ⊛ z 1067 ⊹ z 1 ⊛ z 3 ⊛ z 6 ⊛ z 542 ⊹ z 2 ⊛ z 3 ⊛ z
    6 ⊛ z 539 ⊝ z 120 ⊛ z 1188),
(2488, z 166 ⊛ z 1541 ⊹ z 163 ⊛ z 29 ⊛ z 43 ⊛ z 545),
(2489, z 159 ⊛ z 1541 ⊝ z 545 ⊛ z 2085),
(2490, z 157 ⊛ z 1541 ⊹ d3 ⊛ z 29 ⊛ z 43 ⊛ z 545),
(2491, z 154 ⊛ z 1541 ⊹ d2 ⊛ z 29 ⊛ z 43 ⊛ z 545),
(2492, z 148 ⊛ z 1541 ⊝ z 545 ⊛ z 1074),
(2493, z 52 ⊛ z 1541 ⊝ z 4 ⊛ z 5 ⊛ z 43 ⊛ z 545),
(2494, z 110 ⊛ z 1541 ⊹ z 43 ⊛ z 545 ⊛ z 2065),
(2495, T6 ⊛ z 2475 ⊹ T6 ⊛ z 2476 ⊹ T4 ⊛ z 5 ⊛ z 2477 ⊹ z 406 ⊛ (z 106 ⊛ z 2478 ⊹ z 107 ⊛ z 2479 ⊹
    z 108 ⊛ z 2480 ⊹ z 747 ⊛ z 2065 ⊹ z 748 ⊛ z 2067 ⊹ z 749 ⊛ z 2066) ⊹ z 13 ⊛ z 2477 ⊛ z 409 ⊝
    T4 ⊛ z 6 ⊛ z 2493 ⊝ z 402 ⊛ (z 42 ⊛ z 2483 ⊹ z 4 ⊛ z 5 ⊛ z 708 ⊝ z 3 ⊛ z 707 ⊝ z 4 ⊛ z 2481 ⊝
    z 32 ⊛ z 2482 ⊝ z 4 ⊛ z 6 ⊛ z 706) ⊝ z 404 ⊛ (z 42 ⊛ z 2487 ⊹ z 724 ⊛ z 2428 ⊹ z 725 ⊛ z 1339
    ⊹ z 733 ⊛ z 2488 ⊹ z 734 ⊛ z 2489 ⊹ z 4 ⊛ z 5 ⊛ z 723 ⊹ z 4 ⊛ z 5 ⊛ z 726 ⊝ z 3 ⊛ z 722 ⊝ z 4
    ⊛ z 2484 ⊝ z 32 ⊛ z 2485 ⊝ z 32 ⊛ z 2486 ⊝ z 4 ⊛ z 6 ⊛ z 721) ⊝ z 405 ⊛ (z 42 ⊛ z 2487 ⊹ z 733
    ⊛ z 2491 ⊹ z 734 ⊛ z 2492 ⊹ z 738 ⊛ z 2428 ⊹ z 739 ⊛ z 1339 ⊹ z 4 ⊛ z 5 ⊛ z 723 ⊹ z 4 ⊛ z 5 ⊛
    z 740 ⊝ z 3 ⊛ z 722 ⊝ z 4 ⊛ z 2484 ⊝ z 32 ⊛ z 2485 ⊝ z 32 ⊛ z 2490 ⊝ z 4 ⊛ z 6 ⊛ z 721) ⊝ z
    2494 ⊛ z 408 ⊝ z 14 ⊛ z 2493 ⊛ z 409),
(2496, z 979 ⊛ z 2438 ⊹ z 997 ⊛ z 2134 ⊝ z 973 ⊛ z 2442 ⊝ z 978 ⊛ z 2443 ⊝ z 995 ⊛ z 2106 ⊝ z 999
    ⊛ z 2121),
(2497, z 98 ⊛ z 2235 ⊹ z 99 ⊛ z 2241 ⊹ ig11 ⊛ z 98 ⊛ z 2224 ⊹ ig22 ⊛ z 99 ⊛ z 2239 ⊹ ig31 ⊛ z 98 ⊛
    z 2228 ⊝ mg ⊛ (z 200 ⊛ z 2263 ⊹ z 201 ⊛ z 2266 ⊝ z 205 ⊛ z 2256)),
(2498, z 2497 ⊹ z 903 ⊛ z 2403 ⊹ z 907 ⊛ z 2411 ⊹ z 2050 ⊛ z 666 ⊹ z 2060 ⊛ z 668 ⊹ z 2064 ⊛ z 665
    ⊹ z 2077 ⊛ z 667 ⊝ z 902 ⊛ z 2400 ⊝ z 906 ⊛ z 2408),
(2499, z 406 ⊛ (z 200 ⊛ z 2067 ⊹ z 201 ⊛ z 2066 ⊝ z 205 ⊛ z 2065)),
(2500, z 48 ⊛ z 760 ⊹ z 48 ⊛ z 771 ⊹ z 763 ⊛ z 1061 ⊹ z 766 ⊛ z 1126 ⊹ z 775 ⊛ z 1061 ⊹ z 784 ⊛ z
    1062 ⊹ z 788 ⊛ z 1126 ⊹ z 793 ⊛ z 1063 ⊹ z 804 ⊛ z 1134 ⊹ z 809 ⊛ z 1132 ⊹ z 814 ⊛ z 1127 ⊹ z
    820 ⊛ z 1134 ⊹ z 825 ⊛ z 1132 ⊹ z 835 ⊛ z 1138 ⊹ z 839 ⊛ z 1127 ⊹ z 846 ⊛ z 1137 ⊹ z 855 ⊛ z
    2221 ⊹ z 860 ⊛ z 2232 ⊹ z 866 ⊛ z 2229 ⊹ z 871 ⊛ z 2221 ⊹ z 875 ⊛ z 2232 ⊹ ic11 ⊛ z 45 ⊛ z 48
    ⊹ ic22 ⊛ z 46 ⊛ z 1126 ⊹ ic31 ⊛ z 45 ⊛ z 1061 ⊹ ic31 ⊛ z 48 ⊛ z 49 ⊹ ic33 ⊛ z 49 ⊛ z 1061 ⊹
    id11 ⊛ z 60 ⊛ z 1062 ⊹ id11 ⊛ z 63 ⊛ z 1063 ⊹ id22 ⊛ z 46 ⊛ z 1126 ⊹ ie11 ⊛ z 74 ⊛ z 1134 ⊹
    ie22 ⊛ z 77 ⊛ z 1127 ⊹ ie31 ⊛ z 74 ⊛ z 1132 ⊹ ie31 ⊛ z 80 ⊛ z 1134 ⊹ ie33 ⊛ z 80 ⊛ z 1132 ⊹
    if11 ⊛ z 92 ⊛ z 1138 ⊹ if11 ⊛ z 97 ⊛ z 1137 ⊹ if22 ⊛ z 77 ⊛ z 1127 ⊹ ig11 ⊛ z 109 ⊛ z 2221 ⊹
    ig22 ⊛ z 113 ⊛ z 2229 ⊹ ig31 ⊛ z 109 ⊛ z 2232 ⊹ ig31 ⊛ z 117 ⊛ z 2221 ⊹ ig33 ⊛ z 117 ⊛ z 2232
    ⊹ n 2 ⊛ mc ⊛ (z 139 ⊛ z 2267 ⊹ l1 ⊛ z 131 ⊛ z 1126 ⊹ l2 ⊛ z 134 ⊛ z 1126) ⊹ n 2 ⊛ mg ⊛ (z 212
    ⊛ (z 2255 ⊹ z 2257) ⊹ z 209 ⊛ (z 2243 ⊹ l6 ⊛ z 2229) ⊹ z 215 ⊛ (z 2264 ⊝ l5 ⊛ z 2229)) ⊹ n 2 ⊛
    me ⊛ (z 162 ⊛ z 2273 ⊹ d1 ⊛ z 140 ⊛ z 1126 ⊹ d1 ⊛ z 147 ⊛ z 1061 ⊹ d1 ⊛ z 168 ⊛ z 1126 ⊹ z 158
    ⊛ z 140 ⊛ z 1127 ⊹ z 158 ⊛ z 168 ⊛ z 1127 ⊹ z 163 ⊛ z 165 ⊛ z 1127 ⊹ z 9 ⊛ z 147 ⊛ z 2273 ⊹ d1
    ⊛ z 9 ⊛ z 162 ⊛ z 1061 ⊹ d1 ⊛ z 10 ⊛ z 165 ⊛ z 1061 ⊹ z 163 ⊛ z 10 ⊛ z 147 ⊛ z 1127) ⊹ n 2 ⊛
    mf ⊛ (z 151 ⊛ z 1135 ⊹ d1 ⊛ z 140 ⊛ z 1126 ⊹ d1 ⊛ z 147 ⊛ z 1061 ⊹ d1 ⊛ z 156 ⊛ z 1126 ⊹ d2 ⊛
    z 153 ⊛ z 1127 ⊹ d3 ⊛ z 140 ⊛ z 1127 ⊹ d3 ⊛ z 156 ⊛ z 1127 ⊹ z 9 ⊛ z 147 ⊛ z 1135 ⊹ d1 ⊛ z 9 ⊛
    z 151 ⊛ z 1061 ⊹ d1 ⊛ z 10 ⊛ z 153 ⊛ z 1061 ⊹ d2 ⊛ z 10 ⊛ z 147 ⊛ z 1127))]

/-- _mooreriderlean2012.py:4731-4827 -/
def part38 : List (ℕ × E) := [
(2501, ic22 ⊛ z 51 ⊛ z 1126 ⊹ ic31 ⊛ z 48 ⊛ z 52 ⊹ ic33 ⊛ z 52 ⊛ z 1061 ⊹ id11 ⊛ z 61 ⊛ z 1062 ⊹
    id11 ⊛ z 64 ⊛ z 1063 ⊹ id22 ⊛ z 51 ⊛ z 1126 ⊹ ie11 ⊛ z 81 ⊛ z 1134 ⊹ ie22 ⊛ z 82 ⊛ z 1127 ⊹
    ie31 ⊛ z 52 ⊛ z 1134 ⊹ ie31 ⊛ z 81 ⊛ z 1132 ⊹ ie33 ⊛ z 52 ⊛ z 1132 ⊹ if11 ⊛ z 90 ⊛ z 1138 ⊹
    if11 ⊛ z 94 ⊛ z 1137 ⊹ if22 ⊛ z 82 ⊛ z 1127 ⊹ ig11 ⊛ z 110 ⊛ z 2221 ⊹ ig22 ⊛ z 112 ⊛ z 2229 ⊹
    ig31 ⊛ z 110 ⊛ z 2232 ⊹ ig31 ⊛ z 115 ⊛ z 2221 ⊹ ig33 ⊛ z 115 ⊛ z 2232 ⊹ z 3 ⊛ z 43 ⊛ z 766 ⊹ z
    3 ⊛ z 43 ⊛ z 788 ⊹ z 27 ⊛ z 43 ⊛ z 804 ⊹ z 27 ⊛ z 43 ⊛ z 820 ⊹ z 29 ⊛ z 43 ⊛ z 814 ⊹ z 29 ⊛ z
    43 ⊛ z 839 ⊹ z 43 ⊛ z 784 ⊛ z 1141 ⊹ z 43 ⊛ z 835 ⊛ z 1078 ⊹ z 43 ⊛ z 846 ⊛ z 1077 ⊹ z 43 ⊛ z
    855 ⊛ z 2065 ⊹ z 43 ⊛ z 860 ⊛ z 2066 ⊹ z 43 ⊛ z 866 ⊛ z 2067 ⊹ z 43 ⊛ z 871 ⊛ z 2065 ⊹ z 43 ⊛
    z 875 ⊛ z 2066 ⊹ z 4 ⊛ z 6 ⊛ z 43 ⊛ z 760 ⊹ z 4 ⊛ z 6 ⊛ z 43 ⊛ z 771 ⊹ mg ⊛ (z 209 ⊛ z 2076 ⊹
    z 215 ⊛ z 2074 ⊹ z 212 ⊛ (z 2071 ⊹ z 2072) ⊹ z 214 ⊛ (z 2255 ⊹ z 2257) ⊹ z 211 ⊛ (z 2243 ⊹ l6
    ⊛ z 2229) ⊹ z 217 ⊛ (z 2264 ⊝ l5 ⊛ z 2229)) ⊝ ic11 ⊛ z 48 ⊛ z 50 ⊝ ic31 ⊛ z 50 ⊛ z 1061 ⊝ z 43
    ⊛ z 793 ⊛ z 1142 ⊝ z 4 ⊛ z 5 ⊛ z 43 ⊛ z 763 ⊝ z 4 ⊛ z 5 ⊛ z 43 ⊛ z 775 ⊝ z 4 ⊛ z 5 ⊛ z 43 ⊛ z
    809 ⊝ z 4 ⊛ z 5 ⊛ z 43 ⊛ z 825 ⊝ mc ⊛ (z 131 ⊛ z 2084 ⊹ z 139 ⊛ z 2083 ⊹ l1 ⊛ z 138 ⊛ z 1126 ⊝
    z 130 ⊛ z 2267 ⊝ z 134 ⊛ z 2082 ⊝ l2 ⊛ z 137 ⊛ z 1126) ⊝ me ⊛ (z 140 ⊛ z 1081 ⊹ z 147 ⊛ z 1066
    ⊹ z 162 ⊛ z 2085 ⊹ z 168 ⊛ z 1081 ⊹ d1 ⊛ z 146 ⊛ z 1126 ⊹ z 158 ⊛ z 146 ⊛ z 1127 ⊹ z 9 ⊛ z 147
    ⊛ z 2085 ⊹ z 9 ⊛ z 162 ⊛ z 1066 ⊹ z 9 ⊛ z 165 ⊛ z 1067 ⊹ z 10 ⊛ z 165 ⊛ z 1066 ⊹ z 163 ⊛ z 9 ⊛
    z 126 ⊛ z 1127 ⊝ z 159 ⊛ z 2273 ⊝ d1 ⊛ z 145 ⊛ z 1061 ⊝ d1 ⊛ z 169 ⊛ z 1126 ⊝ z 158 ⊛ z 169 ⊛
    z 1127 ⊝ z 163 ⊛ z 166 ⊛ z 1127 ⊝ z 9 ⊛ z 145 ⊛ z 2273 ⊝ z 10 ⊛ z 126 ⊛ z 2273 ⊝ z 10 ⊛ z 162
    ⊛ z 1067 ⊝ d1 ⊛ z 9 ⊛ z 159 ⊛ z 1061 ⊝ d1 ⊛ z 10 ⊛ z 166 ⊛ z 1061 ⊝ z 158 ⊛ z 29 ⊛ z 43 ⊛ z
    140 ⊝ z 158 ⊛ z 29 ⊛ z 43 ⊛ z 168 ⊝ z 163 ⊛ z 10 ⊛ z 145 ⊛ z 1127 ⊝ z 163 ⊛ z 29 ⊛ z 43 ⊛ z
    165 ⊝ z 163 ⊛ z 10 ⊛ z 29 ⊛ z 43 ⊛ z 147) ⊝ mf ⊛ (z 140 ⊛ z 1081 ⊹ z 147 ⊛ z 1066 ⊹ z 151 ⊛ z
    1074 ⊹ z 156 ⊛ z 1081 ⊹ d1 ⊛ z 146 ⊛ z 1126 ⊹ d3 ⊛ z 146 ⊛ z 1127 ⊹ z 9 ⊛ z 147 ⊛ z 1074 ⊹ z 9
    ⊛ z 151 ⊛ z 1066 ⊹ z 9 ⊛ z 153 ⊛ z 1067 ⊹ z 10 ⊛ z 153 ⊛ z 1066 ⊹ d2 ⊛ z 9 ⊛ z 126 ⊛ z 1127 ⊝
    z 148 ⊛ z 1135 ⊝ d1 ⊛ z 145 ⊛ z 1061 ⊝ d1 ⊛ z 157 ⊛ z 1126 ⊝ d2 ⊛ z 154 ⊛ z 1127 ⊝ d3 ⊛ z 157
    ⊛ z 1127 ⊝ z 9 ⊛ z 145 ⊛ z 1135 ⊝ z 10 ⊛ z 126 ⊛ z 1135 ⊝ z 10 ⊛ z 151 ⊛ z 1067 ⊝ d1 ⊛ z 9 ⊛ z
    148 ⊛ z 1061 ⊝ d1 ⊛ z 10 ⊛ z 154 ⊛ z 1061 ⊝ d2 ⊛ z 10 ⊛ z 145 ⊛ z 1127 ⊝ d2 ⊛ z 29 ⊛ z 43 ⊛ z
    153 ⊝ d3 ⊛ z 29 ⊛ z 43 ⊛ z 140 ⊝ d3 ⊛ z 29 ⊛ z 43 ⊛ z 156 ⊝ d2 ⊛ z 10 ⊛ z 29 ⊛ z 43 ⊛ z 147)),
(2502, z 763 ⊛ z 1156 ⊹ z 775 ⊛ z 1156 ⊹ z 804 ⊛ z 1160 ⊹ z 809 ⊛ z 1159 ⊹ z 814 ⊛ z 1153 ⊹ z 820
    ⊛ z 1160 ⊹ z 825 ⊛ z 1159 ⊹ z 835 ⊛ z 1164 ⊹ z 839 ⊛ z 1153 ⊹ z 846 ⊛ z 1163 ⊹ z 860 ⊛ z 2051
    ⊹ z 866 ⊛ z 2052 ⊹ z 875 ⊛ z 2051 ⊹ n 2 ⊛ z 766 ⊛ z 1152 ⊹ n 2 ⊛ z 788 ⊛ z 1152 ⊹ ic22 ⊛ z 47
    ⊛ z 1126 ⊹ ic31 ⊛ pow (z 48) 2 ⊹ ic33 ⊛ z 48 ⊛ z 1061 ⊹ id11 ⊛ z 65 ⊛ z 1063 ⊹ id22 ⊛ z 47 ⊛ z
    1126 ⊹ ie11 ⊛ z 73 ⊛ z 1134 ⊹ ie22 ⊛ z 76 ⊛ z 1127 ⊹ ie31 ⊛ z 73 ⊛ z 1132 ⊹ ie31 ⊛ z 78 ⊛ z
    1134 ⊹ ie33 ⊛ z 78 ⊛ z 1132 ⊹ if11 ⊛ z 91 ⊛ z 1138 ⊹ if11 ⊛ z 95 ⊛ z 1137 ⊹ if22 ⊛ z 76 ⊛ z
    1127 ⊹ ig11 ⊛ z 111 ⊛ z 2221 ⊹ ig22 ⊛ z 114 ⊛ z 2229 ⊹ ig31 ⊛ z 111 ⊛ z 2232 ⊹ ig31 ⊛ z 116 ⊛
    z 2221 ⊹ ig33 ⊛ z 116 ⊛ z 2232 ⊹ z 14 ⊛ z 855 ⊛ z 1156 ⊹ z 14 ⊛ z 871 ⊛ z 1156 ⊹ z 7 ⊛ z 793 ⊛
    z 1156 ⊹ mc ⊛ (z 128 ⊛ z 2267 ⊹ l1 ⊛ z 132 ⊛ z 1126 ⊹ l1 ⊛ z 139 ⊛ z 1156 ⊹ l2 ⊛ z 135 ⊛ z
    1126 ⊹ n 2 ⊛ l1 ⊛ z 131 ⊛ z 1152 ⊹ n 2 ⊛ l2 ⊛ z 134 ⊛ z 1152) ⊹ mg ⊛ (z 212 ⊛ (z 2053 ⊹ z
    2055) ⊹ z 213 ⊛ (z 2255 ⊹ z 2257) ⊹ z 210 ⊛ (z 2243 ⊹ l6 ⊛ z 2229) ⊹ z 209 ⊛ (n 2 ⊛ z 2058 ⊹
    l6 ⊛ z 2052) ⊹ z 215 ⊛ (z 2056 ⊝ l5 ⊛ z 2052) ⊹ z 216 ⊛ (z 2264 ⊝ l5 ⊛ z 2229)) ⊹ me ⊛ (z 160
    ⊛ z 2273 ⊹ z 162 ⊛ z 2111 ⊹ d1 ⊛ z 141 ⊛ z 1126 ⊹ d1 ⊛ z 143 ⊛ z 1061 ⊹ d1 ⊛ z 147 ⊛ z 1156 ⊹
    d1 ⊛ z 167 ⊛ z 1126 ⊹ z 158 ⊛ z 140 ⊛ z 1153 ⊹ z 158 ⊛ z 141 ⊛ z 1127 ⊹ z 158 ⊛ z 167 ⊛ z 1127
    ⊹ z 158 ⊛ z 168 ⊛ z 1153 ⊹ z 163 ⊛ z 164 ⊛ z 1127 ⊹ z 163 ⊛ z 165 ⊛ z 1153 ⊹ z 9 ⊛ z 143 ⊛ z
    2273 ⊹ z 9 ⊛ z 147 ⊛ z 2111 ⊹ n 2 ⊛ d1 ⊛ z 140 ⊛ z 1152 ⊹ n 2 ⊛ d1 ⊛ z 168 ⊛ z 1152 ⊹ d1 ⊛ z 9
    ⊛ z 160 ⊛ z 1061 ⊹ d1 ⊛ z 9 ⊛ z 162 ⊛ z 1156 ⊹ d1 ⊛ z 10 ⊛ z 164 ⊛ z 1061 ⊹ d1 ⊛ z 10 ⊛ z 165
    ⊛ z 1156 ⊹ z 163 ⊛ z 10 ⊛ z 143 ⊛ z 1127 ⊹ z 163 ⊛ z 10 ⊛ z 147 ⊛ z 1153) ⊹ mf ⊛ (z 149 ⊛ z
    1135 ⊹ z 151 ⊛ z 1161 ⊹ d1 ⊛ z 141 ⊛ z 1126 ⊹ d1 ⊛ z 143 ⊛ z 1061 ⊹ d1 ⊛ z 147 ⊛ z 1156 ⊹ d1 ⊛
    z 155 ⊛ z 1126 ⊹ d2 ⊛ z 152 ⊛ z 1127 ⊹ d2 ⊛ z 153 ⊛ z 1153 ⊹ d3 ⊛ z 140 ⊛ z 1153 ⊹ d3 ⊛ z 141
    ⊛ z 1127 ⊹ d3 ⊛ z 155 ⊛ z 1127 ⊹ d3 ⊛ z 156 ⊛ z 1153 ⊹ z 9 ⊛ z 143 ⊛ z 1135 ⊹ z 9 ⊛ z 147 ⊛ z
    1161 ⊹ n 2 ⊛ d1 ⊛ z 140 ⊛ z 1152 ⊹ n 2 ⊛ d1 ⊛ z 156 ⊛ z 1152 ⊹ d1 ⊛ z 9 ⊛ z 149 ⊛ z 1061 ⊹ d1
    ⊛ z 9 ⊛ z 151 ⊛ z 1156 ⊹ d1 ⊛ z 10 ⊛ z 152 ⊛ z 1061 ⊹ d1 ⊛ z 10 ⊛ z 153 ⊛ z 1156 ⊹ d2 ⊛ z 10 ⊛
    z 143 ⊛ z 1127 ⊹ d2 ⊛ z 10 ⊛ z 147 ⊛ z 1153) ⊝ id11 ⊛ z 62 ⊛ z 1062 ⊝ z 8 ⊛ z 784 ⊛ z 1156),
(2503, z 2500 ⊹ z 538 ⊛ z 2406 ⊹ z 544 ⊛ z 2501 ⊹ z 547 ⊛ z 2502 ⊹ z 888 ⊛ z 1490 ⊹ if22 ⊛ z 83 ⊛
    z 549 ⊛ z 1127 ⊝ z 541 ⊛ z 2409 ⊝ z 887 ⊛ z 1187 ⊝ z 918 ⊛ z 1540 ⊝ z 926 ⊛ z 1576 ⊝ z 935 ⊛ z
    1622),
(2504, z 2503 ⊹ z 538 ⊛ z 2407 ⊹ z 544 ⊛ z 2292 ⊹ z 547 ⊛ z 2402 ⊹ z 549 ⊛ z 2404 ⊹ z 947 ⊛ z 1490
    ⊝ z 541 ⊛ z 2410 ⊝ z 940 ⊛ z 1540 ⊝ z 941 ⊛ z 1576 ⊝ z 944 ⊛ z 1622 ⊝ z 946 ⊛ z 1187),
(2505, z 542 ⊛ z 2409 ⊹ z 888 ⊛ z 1484 ⊹ id22 ⊛ z 53 ⊛ z 1126 ⊝ z 539 ⊛ z 2406 ⊝ z 545 ⊛ z 2501 ⊝
    z 887 ⊛ z 1188 ⊝ z 918 ⊛ z 1541 ⊝ z 935 ⊛ z 1624 ⊝ if22 ⊛ z 83 ⊛ z 550 ⊛ z 1127),
(2506, z 2505 ⊹ z 538 ⊛ z 2091 ⊹ z 544 ⊛ z 2101 ⊹ z 547 ⊛ z 2136 ⊹ z 549 ⊛ z 2102 ⊹ z 958 ⊛ z 1490
    ⊝ z 541 ⊛ z 2088 ⊝ z 954 ⊛ z 1576 ⊝ z 955 ⊛ z 1540 ⊝ z 957 ⊛ z 1187 ⊝ z 961 ⊛ z 1622),
(2507, z 949 ⊛ z 2103 ⊹ z 964 ⊛ z 2504 ⊝ z 950 ⊛ z 2506 ⊝ z 963 ⊛ z 2435),
(2508, z 905 ⊛ z 2134 ⊝ z 973 ⊛ z 2078 ⊝ z 983 ⊛ z 2106),
(2509, z 949 ⊛ z 2107 ⊹ z 960 ⊛ z 2504 ⊝ z 945 ⊛ z 2506 ⊝ z 963 ⊛ z 2437),
(2510, z 978 ⊛ z 2078 ⊹ z 983 ⊛ z 2121 ⊝ z 979 ⊛ z 2139 ⊝ z 982 ⊛ z 2134),
(2511, z 804 ⊛ z 1190 ⊹ z 820 ⊛ z 1190 ⊹ z 835 ⊛ z 1193 ⊹ z 846 ⊛ z 1192 ⊹ ie11 ⊛ z 75 ⊛ z 1134 ⊹
    ie31 ⊛ z 75 ⊛ z 1132 ⊹ ie31 ⊛ z 79 ⊛ z 1134 ⊹ ie33 ⊛ z 79 ⊛ z 1132 ⊹ if11 ⊛ z 93 ⊛ z 1138 ⊹
    if11 ⊛ z 96 ⊛ z 1137 ⊹ n 2 ⊛ z 29 ⊛ z 809 ⊛ (z 30 ⊹ z 69) ⊹ n 2 ⊛ z 29 ⊛ z 825 ⊛ (z 30 ⊹ z 69)
    ⊹ me ⊛ z 2109 ⊛ (z 162 ⊹ z 9 ⊛ z 147) ⊹ mf ⊛ z 1191 ⊛ (z 151 ⊹ z 9 ⊛ z 147) ⊹ me ⊛ z 161 ⊛ (z
    2273 ⊹ d1 ⊛ z 9 ⊛ z 1061) ⊹ mf ⊛ z 150 ⊛ (z 1135 ⊹ d1 ⊛ z 9 ⊛ z 1061)),
(2512, z 2511 ⊹ z 543 ⊛ z 2409 ⊹ z 548 ⊛ z 2502 ⊹ z 887 ⊛ z 1196 ⊹ z 918 ⊛ z 1542 ⊹ if22 ⊛ z 83 ⊛
    z 551 ⊛ z 1127 ⊝ z 540 ⊛ z 2406 ⊝ z 546 ⊛ z 2501 ⊝ z 888 ⊛ z 1487 ⊝ z 926 ⊛ z 1577 ⊝ z 935 ⊛ z
    1623),
(2513, z 2512 ⊹ z 538 ⊛ z 2116 ⊹ z 544 ⊛ z 2119 ⊹ z 547 ⊛ z 2133 ⊹ z 549 ⊛ z 2120 ⊹ z 972 ⊛ z 1490
    ⊝ z 541 ⊛ z 2113 ⊝ z 967 ⊛ z 1576 ⊝ z 970 ⊛ z 1540 ⊝ z 971 ⊛ z 1187 ⊝ z 975 ⊛ z 1622),
(2514, ig11 ⊛ z 98 ⊛ z 2221 ⊹ ig22 ⊛ z 99 ⊛ z 2229 ⊹ ig31 ⊛ z 98 ⊛ z 2232 ⊹ mg ⊛ (z 205 ⊛ (z 2243
    ⊹ l6 ⊛ z 2229) ⊝ z 200 ⊛ (z 2255 ⊹ z 2257) ⊝ z 201 ⊛ (z 2264 ⊝ l5 ⊛ z 2229))),
(2515, z 2514 ⊹ z 538 ⊛ z 2064 ⊹ z 541 ⊛ z 2050 ⊹ z 544 ⊛ z 2077 ⊹ z 547 ⊛ z 2060 ⊹ z 907 ⊛ z 1490
    ⊝ z 902 ⊛ z 1540 ⊝ z 903 ⊛ z 1576 ⊝ z 906 ⊛ z 1187),
(2516, z 905 ⊛ z 2513 ⊝ z 973 ⊛ z 2515 ⊝ z 981 ⊛ z 2106),
(2517, z 977 ⊛ z 2139 ⊹ z 982 ⊛ z 2513 ⊝ z 978 ⊛ z 2515 ⊝ z 981 ⊛ z 2121),
(2518, z 949 ⊛ z 2137 ⊹ z 965 ⊛ z 2504 ⊝ z 951 ⊛ z 2506 ⊝ z 963 ⊛ z 2441),
(2519, z 905 ⊛ z 2121 ⊝ z 973 ⊛ z 2139 ⊝ z 982 ⊛ z 2106),
(2520, z 977 ⊛ z 2078 ⊹ z 983 ⊛ z 2513 ⊝ z 979 ⊛ z 2515 ⊝ z 981 ⊛ z 2134)]

/-- _mooreriderlean2012.py:4828-4940 -/
def part39 : List (ℕ × E) := [
(2521, z 989 ⊛ z 2508 ⊹ z 990 ⊛ z 2507 ⊹ z 993 ⊛ z 2510 ⊹ z 994 ⊛ z 2509 ⊹ z 995 ⊛ z 2516 ⊹ z 996
    ⊛ z 2442 ⊹ z 999 ⊛ z 2517 ⊹ z 1000 ⊛ z 2443 ⊝ z 991 ⊛ z 2519 ⊝ z 992 ⊛ z 2518 ⊝ z 997 ⊛ z 2520
    ⊝ z 998 ⊛ z 2438),
(2522, (z 2521 ⊛ (z 1005 ⊛ z 985 ⊹ z 1022 ⊛ z 987 ⊝ z 1015 ⊛ z 986 ⊝ z 1026 ⊛ z 988) ⊝ z 1001 ⊛ (z
    2141 ⊛ z 985 ⊹ z 2444 ⊛ z 987 ⊹ z 1015 ⊛ (z 2495 ⊝ z 2474) ⊝ z 2471 ⊛ z 986 ⊝ z 2496 ⊛ z 988 ⊝
    z 1026 ⊛ (z 2499 ⊹ z 2498) ⊝ z 1005 ⊛ (z 2433 ⊝ z 2412) ⊝ z 1022 ⊛ (z 2467 ⊝ z 2447))) ⊘ pow
    (z 1001) 2),
(2523, z 13 ⊛ z 1257 ⊹ z 14 ⊛ z 1256),
(2524, z 19 ⊛ z 1256 ⊝ z 16 ⊛ z 1257),
(2525, z 20 ⊛ z 1256 ⊝ z 18 ⊛ z 1257),
(2526, mg ⊛ (z 200 ⊛ z 2524 ⊹ z 201 ⊛ z 2525 ⊝ z 205 ⊛ z 2523)),
(2527, z 1285 ⊛ (z 21 ⊛ z 19 ⊝ z 22 ⊛ z 16)),
(2528, n 2 ⊛ l5 ⊛ z 15 ⊛ z 1285 ⊝ n 2 ⊛ z 2527),
(2529, z 1285 ⊛ (z 21 ⊛ z 20 ⊝ z 22 ⊛ z 18)),
(2530, n 2 ⊛ l5 ⊛ z 17 ⊛ z 1285 ⊝ n 2 ⊛ z 2529),
(2531, z 2057 ⊛ z 1285),
(2532, neg (n 2) ⊛ z 2531 ⊝ n 2 ⊛ l6 ⊛ z 17 ⊛ z 1285),
(2533, n 2 ⊛ ig31 ⊛ z 15 ⊛ z 98 ⊛ z 1285 ⊝ n 2 ⊛ ig22 ⊛ z 17 ⊛ z 99 ⊛ z 1285 ⊝ mg ⊛ (z 200 ⊛ z
    2528 ⊹ z 201 ⊛ z 2530 ⊝ z 205 ⊛ z 2532)),
(2534, z 13 ⊛ z 1308 ⊹ z 14 ⊛ z 1307),
(2535, z 19 ⊛ z 1307 ⊝ z 16 ⊛ z 1308),
(2536, z 20 ⊛ z 1307 ⊝ z 18 ⊛ z 1308),
(2537, mg ⊛ (z 200 ⊛ z 2535 ⊹ z 201 ⊛ z 2536 ⊝ z 205 ⊛ z 2534)),
(2538, z 3 ⊛ (z 13 ⊛ z 5 ⊹ z 14 ⊛ z 6)),
(2539, z 3 ⊛ (z 5 ⊛ z 18 ⊝ z 6 ⊛ z 20)),
(2540, z 3 ⊛ (z 5 ⊛ z 16 ⊝ z 6 ⊛ z 19)),
(2541, z 3 ⊛ z 43 ⊛ (z 21 ⊛ z 6 ⊹ z 22 ⊛ z 5)),
(2542, z 17 ⊛ z 2541 ⊝ z 5 ⊛ z 19 ⊛ z 118 ⊝ z 6 ⊛ z 16 ⊛ z 118),
(2543, z 43 ⊛ (l5 ⊛ z 2539 ⊹ l6 ⊛ z 2538)),
(2544, neg (z 15) ⊛ z 2541 ⊝ z 5 ⊛ z 20 ⊛ z 118 ⊝ z 6 ⊛ z 18 ⊛ z 118),
(2545, z 2544 ⊝ l5 ⊛ z 43 ⊛ z 2540),
(2546, z 118 ⊛ (z 13 ⊛ z 6 ⊝ z 14 ⊛ z 5)),
(2547, z 2546 ⊹ l6 ⊛ z 43 ⊛ z 2540),
(2548, ig22 ⊛ z 43 ⊛ z 99 ⊛ z 2540 ⊹ ig31 ⊛ z 43 ⊛ z 98 ⊛ z 2539 ⊹ mg ⊛ (z 205 ⊛ z 2547 ⊝ z 201 ⊛
    z 2545 ⊝ z 200 ⊛ (z 2542 ⊹ z 2543)) ⊝ ig11 ⊛ z 43 ⊛ z 98 ⊛ z 2538),
(2549, z 540 ⊛ z 2537 ⊹ z 548 ⊛ z 2533 ⊹ z 902 ⊛ z 1551 ⊹ z 906 ⊛ z 1324 ⊝ z 543 ⊛ z 2526 ⊝ z 546
    ⊛ z 2548 ⊝ z 903 ⊛ z 1581 ⊝ z 907 ⊛ z 1498),
(2550, n 2 ⊛ mc ⊛ (z 123 ⊛ z 1257 ⊹ z 125 ⊛ z 1256) ⊹ n 2 ⊛ me ⊛ (z 123 ⊛ z 1257 ⊹ z 125 ⊛ z 1256)
    ⊹ n 2 ⊛ mf ⊛ (z 123 ⊛ z 1257 ⊹ z 125 ⊛ z 1256) ⊹ n 2 ⊛ mg ⊛ (z 183 ⊛ z 2523 ⊹ z 188 ⊛ z 2524 ⊹
    z 193 ⊛ z 2525)),
(2551, mc ⊛ (z 120 ⊛ z 1257 ⊹ z 122 ⊛ z 1256 ⊹ z 123 ⊛ z 1308 ⊹ z 125 ⊛ z 1307) ⊹ me ⊛ (z 120 ⊛ z
    1257 ⊹ z 122 ⊛ z 1256 ⊹ z 123 ⊛ z 1308 ⊹ z 125 ⊛ z 1307) ⊹ mf ⊛ (z 120 ⊛ z 1257 ⊹ z 122 ⊛ z
    1256 ⊹ z 123 ⊛ z 1308 ⊹ z 125 ⊛ z 1307) ⊹ mg ⊛ (z 182 ⊛ z 2523 ⊹ z 183 ⊛ z 2534 ⊹ z 187 ⊛ z
    2524 ⊹ z 188 ⊛ z 2535 ⊹ z 192 ⊛ z 2525 ⊹ z 193 ⊛ z 2536)),
(2552, z 3 ⊛ z 43 ⊛ (l1 ⊛ z 6 ⊝ l2 ⊛ z 5)),
(2553, d2 ⊛ z 1209 ⊹ l4 ⊛ z 1209 ⊝ z 158 ⊛ z 3 ⊛ z 6 ⊛ z 43),
(2554, mg ⊛ (z 183 ⊛ z 2547 ⊹ z 193 ⊛ z 2545 ⊹ z 211 ⊛ z 2523 ⊹ z 214 ⊛ z 2524 ⊹ z 217 ⊛ z 2525 ⊹
    z 188 ⊛ (z 2542 ⊹ z 2543)) ⊝ mc ⊛ (z 124 ⊛ z 2552 ⊹ z 5 ⊛ z 118 ⊛ z 125 ⊝ z 137 ⊛ z 1257 ⊝ z
    138 ⊛ z 1256 ⊝ z 6 ⊛ z 118 ⊛ z 123) ⊝ me ⊛ (z 124 ⊛ z 1202 ⊹ z 126 ⊛ z 1257 ⊹ z 169 ⊛ z 1256 ⊹
    z 158 ⊛ z 125 ⊛ z 1201 ⊹ z 5 ⊛ z 118 ⊛ z 125 ⊹ z 10 ⊛ z 123 ⊛ z 2553 ⊹ z 10 ⊛ z 159 ⊛ z 1257 ⊝
    z 146 ⊛ z 1256 ⊝ z 6 ⊛ z 118 ⊛ z 123 ⊝ z 9 ⊛ z 124 ⊛ z 2553 ⊝ z 9 ⊛ z 166 ⊛ z 1257 ⊝ z 163 ⊛ z
    9 ⊛ z 123 ⊛ z 1201 ⊝ z 163 ⊛ z 10 ⊛ z 124 ⊛ z 1201) ⊝ mf ⊛ (z 124 ⊛ z 1202 ⊹ z 126 ⊛ z 1257 ⊹
    z 157 ⊛ z 1256 ⊹ d3 ⊛ z 125 ⊛ z 1201 ⊹ z 5 ⊛ z 118 ⊛ z 125 ⊹ z 10 ⊛ z 123 ⊛ z 1210 ⊹ z 10 ⊛ z
    148 ⊛ z 1257 ⊝ z 146 ⊛ z 1256 ⊝ z 6 ⊛ z 118 ⊛ z 123 ⊝ z 9 ⊛ z 124 ⊛ z 1210 ⊝ z 9 ⊛ z 154 ⊛ z
    1257 ⊝ d2 ⊛ z 9 ⊛ z 123 ⊛ z 1201 ⊝ d2 ⊛ z 10 ⊛ z 124 ⊛ z 1201)),
(2555, z 542 ⊛ z 2550 ⊹ z 914 ⊛ z 1495 ⊝ z 539 ⊛ z 2551 ⊝ z 545 ⊛ z 2554 ⊝ z 910 ⊛ z 1314 ⊝ z 916
    ⊛ z 1550),
(2556, n 2 ⊛ mc ⊛ (z 120 ⊛ z 1308 ⊹ z 122 ⊛ z 1307) ⊹ n 2 ⊛ me ⊛ (z 120 ⊛ z 1308 ⊹ z 122 ⊛ z 1307)
    ⊹ n 2 ⊛ mf ⊛ (z 120 ⊛ z 1308 ⊹ z 122 ⊛ z 1307) ⊹ n 2 ⊛ mg ⊛ (z 182 ⊛ z 2534 ⊹ z 187 ⊛ z 2535 ⊹
    z 192 ⊛ z 2536)),
(2557, mg ⊛ (z 182 ⊛ z 2547 ⊹ z 192 ⊛ z 2545 ⊹ z 211 ⊛ z 2534 ⊹ z 214 ⊛ z 2535 ⊹ z 217 ⊛ z 2536 ⊹
    z 187 ⊛ (z 2542 ⊹ z 2543)) ⊹ me ⊛ (z 121 ⊛ z 1202 ⊹ z 146 ⊛ z 1307 ⊹ z 6 ⊛ z 118 ⊛ z 120 ⊹ z 9
    ⊛ z 166 ⊛ z 1308 ⊹ z 163 ⊛ z 9 ⊛ z 120 ⊛ z 1201 ⊝ z 126 ⊛ z 1308 ⊝ z 169 ⊛ z 1307 ⊝ z 158 ⊛ z
    122 ⊛ z 1201 ⊝ z 5 ⊛ z 118 ⊛ z 122 ⊝ z 9 ⊛ z 121 ⊛ z 2553 ⊝ z 10 ⊛ z 120 ⊛ z 2553 ⊝ z 10 ⊛ z
    159 ⊛ z 1308 ⊝ z 163 ⊛ z 10 ⊛ z 121 ⊛ z 1201) ⊹ mf ⊛ (z 121 ⊛ z 1202 ⊹ z 146 ⊛ z 1307 ⊹ z 6 ⊛
    z 118 ⊛ z 120 ⊹ z 9 ⊛ z 154 ⊛ z 1308 ⊹ d2 ⊛ z 9 ⊛ z 120 ⊛ z 1201 ⊝ z 126 ⊛ z 1308 ⊝ z 157 ⊛ z
    1307 ⊝ d3 ⊛ z 122 ⊛ z 1201 ⊝ z 5 ⊛ z 118 ⊛ z 122 ⊝ z 9 ⊛ z 121 ⊛ z 1210 ⊝ z 10 ⊛ z 120 ⊛ z
    1210 ⊝ z 10 ⊛ z 148 ⊛ z 1308 ⊝ d2 ⊛ z 10 ⊛ z 121 ⊛ z 1201) ⊝ mc ⊛ (z 5 ⊛ z 118 ⊛ z 122 ⊝ z 121
    ⊛ z 2552 ⊝ z 137 ⊛ z 1308 ⊝ z 138 ⊛ z 1307 ⊝ z 6 ⊛ z 118 ⊛ z 120)),
(2558, z 542 ⊛ z 2551 ⊹ z 910 ⊛ z 1495 ⊝ z 539 ⊛ z 2556 ⊝ z 545 ⊛ z 2557 ⊝ z 909 ⊛ z 1314 ⊝ z 912
    ⊛ z 1550),
(2559, ic11 ⊛ z 3 ⊛ z 5 ⊛ z 43),
(2560, ic33 ⊛ z 3 ⊛ z 6 ⊛ z 43),
(2561, ie33 ⊛ z 3 ⊛ z 6 ⊛ z 43),
(2562, ie31 ⊛ z 3 ⊛ z 6 ⊛ z 43),
(2563, ic31 ⊛ z 3 ⊛ z 6 ⊛ z 43),
(2564, ic31 ⊛ z 3 ⊛ z 5 ⊛ z 43),
(2565, z 50 ⊛ z 2559 ⊹ z 50 ⊛ z 2563 ⊹ z 815 ⊛ z 1201 ⊹ z 840 ⊛ z 1201 ⊹ ie22 ⊛ z 82 ⊛ z 1201 ⊹
    if22 ⊛ z 82 ⊛ z 1201 ⊹ z 43 ⊛ z 833 ⊛ z 1214 ⊹ z 43 ⊛ z 861 ⊛ z 2539 ⊹ z 43 ⊛ z 865 ⊛ z 2540 ⊹
    z 43 ⊛ z 873 ⊛ z 2539 ⊹ if11 ⊛ z 43 ⊛ z 90 ⊛ z 1214 ⊹ ig22 ⊛ z 43 ⊛ z 112 ⊛ z 2540 ⊹ ig31 ⊛ z
    43 ⊛ z 110 ⊛ z 2539 ⊹ ig33 ⊛ z 43 ⊛ z 115 ⊛ z 2539 ⊹ z 3 ⊛ z 5 ⊛ z 43 ⊛ z 761 ⊹ z 3 ⊛ z 6 ⊛ z
    43 ⊛ z 764 ⊹ n 2 ⊛ mg ⊛ (z 211 ⊛ z 2547 ⊹ z 217 ⊛ z 2545 ⊹ z 214 ⊛ (z 2542 ⊹ z 2543)) ⊹ n 2 ⊛
    me ⊛ (z 159 ⊛ z 2553 ⊹ z 158 ⊛ z 169 ⊛ z 1201 ⊹ z 163 ⊛ z 166 ⊛ z 1201 ⊹ z 5 ⊛ z 118 ⊛ z 169 ⊹
    z 9 ⊛ z 145 ⊛ z 2553 ⊹ z 10 ⊛ z 126 ⊛ z 2553 ⊹ z 163 ⊛ z 10 ⊛ z 145 ⊛ z 1201 ⊹ z 6 ⊛ z 9 ⊛ z
    118 ⊛ z 166 ⊝ z 145 ⊛ z 1202 ⊝ z 158 ⊛ z 146 ⊛ z 1201 ⊝ z 5 ⊛ z 118 ⊛ z 146 ⊝ z 6 ⊛ z 118 ⊛ z
    126 ⊝ z 9 ⊛ z 159 ⊛ z 1202 ⊝ z 10 ⊛ z 166 ⊛ z 1202 ⊝ z 163 ⊛ z 9 ⊛ z 126 ⊛ z 1201 ⊝ z 6 ⊛ z 10
    ⊛ z 118 ⊛ z 159) ⊹ n 2 ⊛ mf ⊛ (z 148 ⊛ z 1210 ⊹ d2 ⊛ z 154 ⊛ z 1201 ⊹ d3 ⊛ z 157 ⊛ z 1201 ⊹ z
    5 ⊛ z 118 ⊛ z 157 ⊹ z 9 ⊛ z 145 ⊛ z 1210 ⊹ z 10 ⊛ z 126 ⊛ z 1210 ⊹ d2 ⊛ z 10 ⊛ z 145 ⊛ z 1201
    ⊹ z 6 ⊛ z 9 ⊛ z 118 ⊛ z 154 ⊝ z 145 ⊛ z 1202 ⊝ d3 ⊛ z 146 ⊛ z 1201 ⊝ z 5 ⊛ z 118 ⊛ z 146 ⊝ z 6
    ⊛ z 118 ⊛ z 126 ⊝ z 9 ⊛ z 148 ⊛ z 1202 ⊝ z 10 ⊛ z 154 ⊛ z 1202 ⊝ d2 ⊛ z 9 ⊛ z 126 ⊛ z 1201 ⊝ z
    6 ⊛ z 10 ⊛ z 118 ⊛ z 148) ⊝ z 52 ⊛ z 2560 ⊝ z 52 ⊛ z 2561 ⊝ z 52 ⊛ z 2564 ⊝ z 81 ⊛ z 2562 ⊝ z
    806 ⊛ z 1209 ⊝ z 817 ⊛ z 1209 ⊝ ie11 ⊛ z 81 ⊛ z 1209 ⊝ ie31 ⊛ z 52 ⊛ z 1209 ⊝ z 43 ⊛ z 785 ⊛ z
    1278 ⊝ z 43 ⊛ z 794 ⊛ z 1279 ⊝ z 43 ⊛ z 843 ⊛ z 1213 ⊝ z 43 ⊛ z 856 ⊛ z 2538 ⊝ z 43 ⊛ z 869 ⊛
    z 2538 ⊝ id11 ⊛ z 43 ⊛ z 61 ⊛ z 1278 ⊝ id11 ⊛ z 43 ⊛ z 64 ⊛ z 1279 ⊝ if11 ⊛ z 43 ⊛ z 94 ⊛ z
    1213 ⊝ ig11 ⊛ z 43 ⊛ z 110 ⊛ z 2538 ⊝ ig31 ⊛ z 43 ⊛ z 115 ⊛ z 2538 ⊝ z 3 ⊛ z 5 ⊛ z 43 ⊛ z 772
    ⊝ z 3 ⊛ z 6 ⊛ z 43 ⊛ z 776 ⊝ z 3 ⊛ z 6 ⊛ z 43 ⊛ z 811 ⊝ z 3 ⊛ z 6 ⊛ z 43 ⊛ z 822 ⊝ n 2 ⊛ mc ⊛
    (z 130 ⊛ z 2552 ⊹ z 5 ⊛ z 118 ⊛ z 138 ⊝ z 6 ⊛ z 118 ⊛ z 137)),
(2566, z 542 ⊛ z 2554 ⊹ z 916 ⊛ z 1495 ⊝ z 539 ⊛ z 2557 ⊝ z 545 ⊛ z 2565 ⊝ z 912 ⊛ z 1314 ⊝ z 919
    ⊛ z 1550 ⊝ z 936 ⊛ z 1642 ⊝ if22 ⊛ z 83 ⊛ z 550 ⊛ z 1201),
(2567, neg (z 923) ⊛ z 1550 ⊝ z 937 ⊛ z 1642 ⊝ z 545 ⊛ z 841 ⊛ z 1201),
(2568, z 542 ⊛ z 2555 ⊹ z 958 ⊛ z 1495 ⊝ z 539 ⊛ z 2558 ⊝ z 545 ⊛ z 2566 ⊝ z 550 ⊛ z 2567 ⊝ z 921
    ⊛ z 1550 ⊝ z 955 ⊛ z 1550 ⊝ z 957 ⊛ z 1314 ⊝ z 961 ⊛ z 1642),
(2569, n 2 ⊛ z 15 ⊛ z 859 ⊛ z 1285 ⊝ n 2 ⊛ z 17 ⊛ z 864 ⊛ z 1285 ⊝ mg ⊛ (z 200 ⊛ z 2528 ⊹ z 201 ⊛
    z 2530 ⊝ z 205 ⊛ z 2532)),
(2570, z 43 ⊛ z 859 ⊛ z 2539 ⊹ z 43 ⊛ z 864 ⊛ z 2540 ⊹ mg ⊛ (z 205 ⊛ z 2547 ⊝ z 201 ⊛ z 2545 ⊝ z
    200 ⊛ (z 2542 ⊹ z 2543)) ⊝ z 43 ⊛ z 854 ⊛ z 2538)]

/-- _mooreriderlean2012.py:4941-5038 -/
def part40 : List (ℕ × E) := [
(2571, z 540 ⊛ z 2537 ⊹ z 548 ⊛ z 2569 ⊹ z 906 ⊛ z 1324 ⊹ z 924 ⊛ z 1551 ⊝ z 543 ⊛ z 2526 ⊝ z 546
    ⊛ z 2570 ⊝ z 907 ⊛ z 1498 ⊝ z 932 ⊛ z 1581),
(2572, z 539 ⊛ z 2537 ⊹ z 907 ⊛ z 1495 ⊝ z 542 ⊛ z 2526 ⊝ z 545 ⊛ z 2570 ⊝ z 906 ⊛ z 1314 ⊝ z 924
    ⊛ z 1550),
(2573, z 921 ⊛ z 1551 ⊝ z 929 ⊛ z 1581 ⊝ n 2 ⊛ z 548 ⊛ z 791 ⊛ z 1285),
(2574, n 2 ⊛ z 158 ⊛ z 1316 ⊝ d2 ⊛ z 1317 ⊝ l4 ⊛ z 1317),
(2575, (me ⊛ z 2574 ⊹ mf ⊛ z 1318) ⊛ (z 9 ⊛ z 124 ⊝ z 10 ⊛ z 123) ⊝ z 10 ⊛ z 1257 ⊛ (me ⊛ z 161 ⊹
    mf ⊛ z 150)),
(2576, z 158 ⊛ z 1290 ⊝ d2 ⊛ z 1291 ⊝ l4 ⊛ z 1291),
(2577, mg ⊛ (z 183 ⊛ z 2532 ⊹ z 188 ⊛ z 2528 ⊹ z 193 ⊛ z 2530 ⊹ z 210 ⊛ z 2523 ⊹ z 213 ⊛ z 2524 ⊹
    z 216 ⊛ z 2525) ⊹ mc ⊛ (z 135 ⊛ z 1257 ⊹ n 2 ⊛ l1 ⊛ z 125 ⊛ z 1285 ⊝ z 132 ⊛ z 1256 ⊝ n 2 ⊛ l2
    ⊛ z 123 ⊛ z 1285) ⊝ me ⊛ (z 141 ⊛ z 1256 ⊹ z 167 ⊛ z 1256 ⊹ z 158 ⊛ z 125 ⊛ z 1286 ⊹ z 10 ⊛ z
    123 ⊛ z 2576 ⊹ z 10 ⊛ z 160 ⊛ z 1257 ⊝ n 2 ⊛ d1 ⊛ z 125 ⊛ z 1285 ⊝ z 9 ⊛ z 124 ⊛ z 2576 ⊝ z 9
    ⊛ z 164 ⊛ z 1257 ⊝ z 163 ⊛ z 9 ⊛ z 123 ⊛ z 1286 ⊝ z 163 ⊛ z 10 ⊛ z 124 ⊛ z 1286) ⊝ mf ⊛ (z 141
    ⊛ z 1256 ⊹ z 155 ⊛ z 1256 ⊹ d3 ⊛ z 125 ⊛ z 1286 ⊹ z 10 ⊛ z 123 ⊛ z 1292 ⊹ z 10 ⊛ z 149 ⊛ z
    1257 ⊝ n 2 ⊛ d1 ⊛ z 125 ⊛ z 1285 ⊝ z 9 ⊛ z 124 ⊛ z 1292 ⊝ z 9 ⊛ z 152 ⊛ z 1257 ⊝ d2 ⊛ z 9 ⊛ z
    123 ⊛ z 1286 ⊝ d2 ⊛ z 10 ⊛ z 124 ⊛ z 1286)),
(2578, z 2575 ⊹ z 543 ⊛ z 2550 ⊹ z 548 ⊛ z 2577 ⊹ z 910 ⊛ z 1324 ⊹ z 916 ⊛ z 1551 ⊝ z 540 ⊛ z 2551
    ⊝ z 546 ⊛ z 2554 ⊝ z 914 ⊛ z 1498 ⊝ z 915 ⊛ z 1581),
(2579, mg ⊛ (z 182 ⊛ z 2532 ⊹ z 187 ⊛ z 2528 ⊹ z 192 ⊛ z 2530 ⊹ z 210 ⊛ z 2534 ⊹ z 213 ⊛ z 2535 ⊹
    z 216 ⊛ z 2536) ⊹ mc ⊛ (z 135 ⊛ z 1308 ⊹ n 2 ⊛ l1 ⊛ z 122 ⊛ z 1285 ⊝ z 132 ⊛ z 1307 ⊝ n 2 ⊛ l2
    ⊛ z 120 ⊛ z 1285) ⊹ me ⊛ (z 9 ⊛ z 164 ⊛ z 1308 ⊹ n 2 ⊛ d1 ⊛ z 122 ⊛ z 1285 ⊹ z 163 ⊛ z 9 ⊛ z
    120 ⊛ z 1286 ⊝ z 141 ⊛ z 1307 ⊝ z 167 ⊛ z 1307 ⊝ z 158 ⊛ z 122 ⊛ z 1286 ⊝ z 9 ⊛ z 121 ⊛ z 2576
    ⊝ z 10 ⊛ z 120 ⊛ z 2576 ⊝ z 10 ⊛ z 160 ⊛ z 1308 ⊝ z 163 ⊛ z 10 ⊛ z 121 ⊛ z 1286) ⊹ mf ⊛ (z 9 ⊛
    z 152 ⊛ z 1308 ⊹ n 2 ⊛ d1 ⊛ z 122 ⊛ z 1285 ⊹ d2 ⊛ z 9 ⊛ z 120 ⊛ z 1286 ⊝ z 141 ⊛ z 1307 ⊝ z
    155 ⊛ z 1307 ⊝ d3 ⊛ z 122 ⊛ z 1286 ⊝ z 9 ⊛ z 121 ⊛ z 1292 ⊝ z 10 ⊛ z 120 ⊛ z 1292 ⊝ z 10 ⊛ z
    149 ⊛ z 1308 ⊝ d2 ⊛ z 10 ⊛ z 121 ⊛ z 1286)),
(2580, z 10 ⊛ z 1308 ⊛ (me ⊛ z 161 ⊹ mf ⊛ z 150) ⊹ (me ⊛ z 2574 ⊹ mf ⊛ z 1318) ⊛ (z 9 ⊛ z 121 ⊹ z
    10 ⊛ z 120)),
(2581, z 543 ⊛ z 2551 ⊹ z 548 ⊛ z 2579 ⊹ z 909 ⊛ z 1324 ⊹ z 912 ⊛ z 1551 ⊝ z 2580 ⊝ z 540 ⊛ z 2556
    ⊝ z 546 ⊛ z 2557 ⊝ z 910 ⊛ z 1498 ⊝ z 911 ⊛ z 1581),
(2582, z 806 ⊛ z 1317 ⊹ z 817 ⊛ z 1317 ⊹ z 833 ⊛ z 1320 ⊹ z 843 ⊛ z 1319 ⊹ n 2 ⊛ z 811 ⊛ z 1316 ⊹
    n 2 ⊛ z 822 ⊛ z 1316 ⊹ if11 ⊛ z 43 ⊛ z 93 ⊛ z 1214 ⊹ me ⊛ z 2574 ⊛ (z 159 ⊹ z 9 ⊛ z 145 ⊹ z 10
    ⊛ z 126) ⊹ mf ⊛ z 1318 ⊛ (z 148 ⊹ z 9 ⊛ z 145 ⊹ z 10 ⊛ z 126) ⊹ me ⊛ z 161 ⊛ (z 2553 ⊝ z 9 ⊛ z
    1202 ⊝ z 6 ⊛ z 10 ⊛ z 118) ⊹ mf ⊛ z 150 ⊛ (z 1210 ⊝ z 9 ⊛ z 1202 ⊝ z 6 ⊛ z 10 ⊛ z 118) ⊝ z 75
    ⊛ z 2562 ⊝ z 79 ⊛ z 2561 ⊝ ie11 ⊛ z 75 ⊛ z 1209 ⊝ ie31 ⊛ z 79 ⊛ z 1209 ⊝ if11 ⊛ z 43 ⊛ z 96 ⊛
    z 1213),
(2583, z 806 ⊛ z 1291 ⊹ z 811 ⊛ z 1290 ⊹ z 815 ⊛ z 1286 ⊹ z 817 ⊛ z 1291 ⊹ z 822 ⊛ z 1290 ⊹ z 833
    ⊛ z 1294 ⊹ z 840 ⊛ z 1286 ⊹ z 843 ⊛ z 1293 ⊹ ie22 ⊛ z 76 ⊛ z 1201 ⊹ if22 ⊛ z 76 ⊛ z 1201 ⊹ n 2
    ⊛ z 15 ⊛ z 861 ⊛ z 1285 ⊹ n 2 ⊛ z 15 ⊛ z 873 ⊛ z 1285 ⊹ id11 ⊛ z 43 ⊛ z 62 ⊛ z 1278 ⊹ if11 ⊛ z
    43 ⊛ z 91 ⊛ z 1214 ⊹ ig22 ⊛ z 43 ⊛ z 114 ⊛ z 2540 ⊹ ig31 ⊛ z 43 ⊛ z 111 ⊛ z 2539 ⊹ ig33 ⊛ z 43
    ⊛ z 116 ⊛ z 2539 ⊹ mg ⊛ (z 210 ⊛ z 2547 ⊹ z 211 ⊛ z 2532 ⊹ z 214 ⊛ z 2528 ⊹ z 216 ⊛ z 2545 ⊹ z
    217 ⊛ z 2530 ⊹ z 213 ⊛ (z 2542 ⊹ z 2543)) ⊹ me ⊛ (z 159 ⊛ z 2576 ⊹ z 160 ⊛ z 2553 ⊹ z 158 ⊛ z
    141 ⊛ z 1201 ⊹ z 158 ⊛ z 167 ⊛ z 1201 ⊹ z 158 ⊛ z 169 ⊛ z 1286 ⊹ z 163 ⊛ z 164 ⊛ z 1201 ⊹ z
    163 ⊛ z 166 ⊛ z 1286 ⊹ z 5 ⊛ z 118 ⊛ z 141 ⊹ z 5 ⊛ z 118 ⊛ z 167 ⊹ z 9 ⊛ z 143 ⊛ z 2553 ⊹ z 9
    ⊛ z 145 ⊛ z 2576 ⊹ z 10 ⊛ z 126 ⊛ z 2576 ⊹ n 2 ⊛ d1 ⊛ z 146 ⊛ z 1285 ⊹ z 163 ⊛ z 10 ⊛ z 143 ⊛
    z 1201 ⊹ z 163 ⊛ z 10 ⊛ z 145 ⊛ z 1286 ⊹ z 6 ⊛ z 9 ⊛ z 118 ⊛ z 164 ⊝ z 143 ⊛ z 1202 ⊝ n 2 ⊛ d1
    ⊛ z 169 ⊛ z 1285 ⊝ z 158 ⊛ z 146 ⊛ z 1286 ⊝ z 9 ⊛ z 160 ⊛ z 1202 ⊝ z 10 ⊛ z 164 ⊛ z 1202 ⊝ z
    163 ⊛ z 9 ⊛ z 126 ⊛ z 1286 ⊝ z 6 ⊛ z 10 ⊛ z 118 ⊛ z 160) ⊹ mf ⊛ (z 148 ⊛ z 1292 ⊹ z 149 ⊛ z
    1210 ⊹ d2 ⊛ z 152 ⊛ z 1201 ⊹ d2 ⊛ z 154 ⊛ z 1286 ⊹ d3 ⊛ z 141 ⊛ z 1201 ⊹ d3 ⊛ z 155 ⊛ z 1201 ⊹
    d3 ⊛ z 157 ⊛ z 1286 ⊹ z 5 ⊛ z 118 ⊛ z 141 ⊹ z 5 ⊛ z 118 ⊛ z 155 ⊹ z 9 ⊛ z 143 ⊛ z 1210 ⊹ z 9 ⊛
    z 145 ⊛ z 1292 ⊹ z 10 ⊛ z 126 ⊛ z 1292 ⊹ n 2 ⊛ d1 ⊛ z 146 ⊛ z 1285 ⊹ d2 ⊛ z 10 ⊛ z 143 ⊛ z
    1201 ⊹ d2 ⊛ z 10 ⊛ z 145 ⊛ z 1286 ⊹ z 6 ⊛ z 9 ⊛ z 118 ⊛ z 152 ⊝ z 143 ⊛ z 1202 ⊝ n 2 ⊛ d1 ⊛ z
    157 ⊛ z 1285 ⊝ d3 ⊛ z 146 ⊛ z 1286 ⊝ z 9 ⊛ z 149 ⊛ z 1202 ⊝ z 10 ⊛ z 152 ⊛ z 1202 ⊝ d2 ⊛ z 9 ⊛
    z 126 ⊛ z 1286 ⊝ z 6 ⊛ z 10 ⊛ z 118 ⊛ z 149) ⊝ n 2 ⊛ z 768 ⊛ z 1285 ⊝ n 2 ⊛ z 790 ⊛ z 1285 ⊝ z
    48 ⊛ z 2560 ⊝ z 48 ⊛ z 2564 ⊝ z 73 ⊛ z 2562 ⊝ z 78 ⊛ z 2561 ⊝ n 2 ⊛ z 17 ⊛ z 865 ⊛ z 1285 ⊝
    ie11 ⊛ z 73 ⊛ z 1209 ⊝ ie31 ⊛ z 78 ⊛ z 1209 ⊝ id11 ⊛ z 43 ⊛ z 65 ⊛ z 1279 ⊝ if11 ⊛ z 43 ⊛ z 95
    ⊛ z 1213 ⊝ ig11 ⊛ z 43 ⊛ z 111 ⊛ z 2538 ⊝ ig31 ⊛ z 43 ⊛ z 116 ⊛ z 2538 ⊝ mc ⊛ (z 128 ⊛ z 2552
    ⊹ n 2 ⊛ l2 ⊛ z 137 ⊛ z 1285 ⊝ n 2 ⊛ l1 ⊛ z 138 ⊛ z 1285 ⊝ z 5 ⊛ z 118 ⊛ z 132 ⊝ z 6 ⊛ z 118 ⊛
    z 135)),
(2584, z 2582 ⊹ z 543 ⊛ z 2554 ⊹ z 548 ⊛ z 2583 ⊹ z 912 ⊛ z 1324 ⊹ z 919 ⊛ z 1551 ⊹ if22 ⊛ z 83 ⊛
    z 551 ⊛ z 1201 ⊝ z 540 ⊛ z 2557 ⊝ z 546 ⊛ z 2565 ⊝ z 916 ⊛ z 1498 ⊝ z 927 ⊛ z 1581 ⊝ z 936 ⊛ z
    1641),
(2585, z 923 ⊛ z 1551 ⊹ z 548 ⊛ z 841 ⊛ z 1286 ⊝ z 931 ⊛ z 1581 ⊝ z 937 ⊛ z 1641 ⊝ z 546 ⊛ z 841 ⊛
    z 1201),
(2586, z 2573 ⊹ z 542 ⊛ z 2578 ⊹ z 972 ⊛ z 1495 ⊝ z 539 ⊛ z 2581 ⊝ z 545 ⊛ z 2584 ⊝ z 550 ⊛ z 2585
    ⊝ z 970 ⊛ z 1550 ⊝ z 971 ⊛ z 1314 ⊝ z 975 ⊛ z 1642),
(2587, z 964 ⊛ z 2571 ⊹ z 973 ⊛ z 2568 ⊝ z 960 ⊛ z 2586 ⊝ z 978 ⊛ z 2572),
(2588, z 805 ⊛ z 1317 ⊹ z 819 ⊛ z 1317 ⊹ z 836 ⊛ z 1320 ⊹ z 845 ⊛ z 1319 ⊹ n 2 ⊛ z 810 ⊛ z 1316 ⊹
    n 2 ⊛ z 824 ⊛ z 1316 ⊹ ie11 ⊛ z 75 ⊛ z 1317 ⊹ ie31 ⊛ z 79 ⊛ z 1317 ⊹ if11 ⊛ z 93 ⊛ z 1320 ⊹
    if11 ⊛ z 96 ⊛ z 1319 ⊹ n 2 ⊛ ie31 ⊛ z 75 ⊛ z 1316 ⊹ n 2 ⊛ ie33 ⊛ z 79 ⊛ z 1316 ⊹ n 2 ⊛ me ⊛ z
    161 ⊛ z 2574 ⊹ n 2 ⊛ mf ⊛ z 150 ⊛ z 1318),
(2589, z 805 ⊛ z 1291 ⊹ z 810 ⊛ z 1290 ⊹ z 819 ⊛ z 1291 ⊹ z 824 ⊛ z 1290 ⊹ z 836 ⊛ z 1294 ⊹ z 845
    ⊛ z 1293 ⊹ ie11 ⊛ z 73 ⊛ z 1317 ⊹ ie31 ⊛ z 78 ⊛ z 1317 ⊹ if11 ⊛ z 91 ⊛ z 1320 ⊹ if11 ⊛ z 95 ⊛
    z 1319 ⊹ me ⊛ z 161 ⊛ z 2576 ⊹ mf ⊛ z 150 ⊛ z 1292 ⊹ n 2 ⊛ ie31 ⊛ z 73 ⊛ z 1316 ⊹ n 2 ⊛ ie33 ⊛
    z 78 ⊛ z 1316 ⊹ me ⊛ z 2574 ⊛ (z 160 ⊹ z 9 ⊛ z 143) ⊹ mf ⊛ z 1318 ⊛ (z 149 ⊹ z 9 ⊛ z 143)),
(2590, ie11 ⊛ z 81 ⊛ z 1317 ⊹ ie31 ⊛ z 52 ⊛ z 1317 ⊹ if11 ⊛ z 90 ⊛ z 1320 ⊹ if11 ⊛ z 94 ⊛ z 1319 ⊹
    z 43 ⊛ z 836 ⊛ z 1214 ⊹ n 2 ⊛ ie31 ⊛ z 81 ⊛ z 1316 ⊹ n 2 ⊛ ie33 ⊛ z 52 ⊛ z 1316 ⊹ me ⊛ z 2574
    ⊛ (z 159 ⊹ z 9 ⊛ z 145 ⊹ z 10 ⊛ z 126) ⊹ mf ⊛ z 1318 ⊛ (z 148 ⊹ z 9 ⊛ z 145 ⊹ z 10 ⊛ z 126) ⊹
    me ⊛ z 161 ⊛ (z 2553 ⊝ z 9 ⊛ z 1202 ⊝ z 6 ⊛ z 10 ⊛ z 118) ⊹ mf ⊛ z 150 ⊛ (z 1210 ⊝ z 9 ⊛ z
    1202 ⊝ z 6 ⊛ z 10 ⊛ z 118) ⊝ z 805 ⊛ z 1209 ⊝ z 819 ⊛ z 1209 ⊝ z 43 ⊛ z 845 ⊛ z 1213 ⊝ z 3 ⊛ z
    6 ⊛ z 43 ⊛ z 810 ⊝ z 3 ⊛ z 6 ⊛ z 43 ⊛ z 824),
(2591, z 2588 ⊹ z 540 ⊛ z 2580 ⊹ z 543 ⊛ z 2575 ⊹ z 548 ⊛ z 2589 ⊹ z 922 ⊛ z 1551 ⊝ z 546 ⊛ z 2590
    ⊝ z 899 ⊛ z 1324 ⊝ z 900 ⊛ z 1498 ⊝ z 930 ⊛ z 1581),
(2592, z 803 ⊛ z 1317 ⊹ z 818 ⊛ z 1317 ⊹ z 834 ⊛ z 1320 ⊹ z 844 ⊛ z 1319 ⊹ n 2 ⊛ z 808 ⊛ z 1316 ⊹
    n 2 ⊛ z 823 ⊛ z 1316 ⊹ ie11 ⊛ z 75 ⊛ z 1291 ⊹ ie31 ⊛ z 75 ⊛ z 1290 ⊹ ie31 ⊛ z 79 ⊛ z 1291 ⊹
    ie33 ⊛ z 79 ⊛ z 1290 ⊹ if11 ⊛ z 93 ⊛ z 1294 ⊹ if11 ⊛ z 96 ⊛ z 1293 ⊹ me ⊛ z 161 ⊛ z 2576 ⊹ mf
    ⊛ z 150 ⊛ z 1292 ⊹ me ⊛ z 2574 ⊛ (z 160 ⊹ z 9 ⊛ z 143) ⊹ mf ⊛ z 1318 ⊛ (z 149 ⊹ z 9 ⊛ z 143))]

/-- _mooreriderlean2012.py:5039-5152 -/
def part41 : List (ℕ × E) := [
(2593, z 803 ⊛ z 1291 ⊹ z 808 ⊛ z 1290 ⊹ z 813 ⊛ z 1286 ⊹ z 818 ⊛ z 1291 ⊹ z 823 ⊛ z 1290 ⊹ z 834
    ⊛ z 1294 ⊹ z 838 ⊛ z 1286 ⊹ z 844 ⊛ z 1293 ⊹ ie11 ⊛ z 73 ⊛ z 1291 ⊹ ie22 ⊛ z 76 ⊛ z 1286 ⊹
    ie31 ⊛ z 73 ⊛ z 1290 ⊹ ie31 ⊛ z 78 ⊛ z 1291 ⊹ ie33 ⊛ z 78 ⊛ z 1290 ⊹ if11 ⊛ z 91 ⊛ z 1294 ⊹
    if11 ⊛ z 95 ⊛ z 1293 ⊹ if22 ⊛ z 76 ⊛ z 1286 ⊹ n 2 ⊛ z 15 ⊛ z 862 ⊛ z 1285 ⊹ n 2 ⊛ z 15 ⊛ z 874
    ⊛ z 1285 ⊹ n 2 ⊛ ig31 ⊛ z 15 ⊛ z 111 ⊛ z 1285 ⊹ n 2 ⊛ ig33 ⊛ z 15 ⊛ z 116 ⊛ z 1285 ⊹ n 2 ⊛ mg
    ⊛ (z 210 ⊛ z 2532 ⊹ z 213 ⊛ z 2528 ⊹ z 216 ⊛ z 2530) ⊝ n 2 ⊛ z 767 ⊛ z 1285 ⊝ n 2 ⊛ z 789 ⊛ z
    1285 ⊝ n 2 ⊛ ic22 ⊛ z 47 ⊛ z 1285 ⊝ n 2 ⊛ id22 ⊛ z 47 ⊛ z 1285 ⊝ n 2 ⊛ z 17 ⊛ z 867 ⊛ z 1285 ⊝
    n 2 ⊛ ig22 ⊛ z 17 ⊛ z 114 ⊛ z 1285 ⊝ n 4 ⊛ mc ⊛ z 1285 ⊛ (l1 ⊛ z 132 ⊹ l2 ⊛ z 135) ⊝ n 2 ⊛ me
    ⊛ (n 2 ⊛ d1 ⊛ z 141 ⊛ z 1285 ⊹ n 2 ⊛ d1 ⊛ z 167 ⊛ z 1285 ⊝ z 160 ⊛ z 2576 ⊝ z 158 ⊛ z 141 ⊛ z
    1286 ⊝ z 158 ⊛ z 167 ⊛ z 1286 ⊝ z 163 ⊛ z 164 ⊛ z 1286 ⊝ z 9 ⊛ z 143 ⊛ z 2576 ⊝ z 163 ⊛ z 10 ⊛
    z 143 ⊛ z 1286) ⊝ n 2 ⊛ mf ⊛ (n 2 ⊛ d1 ⊛ z 141 ⊛ z 1285 ⊹ n 2 ⊛ d1 ⊛ z 155 ⊛ z 1285 ⊝ z 149 ⊛
    z 1292 ⊝ d2 ⊛ z 152 ⊛ z 1286 ⊝ d3 ⊛ z 141 ⊛ z 1286 ⊝ d3 ⊛ z 155 ⊛ z 1286 ⊝ z 9 ⊛ z 143 ⊛ z
    1292 ⊝ d2 ⊛ z 10 ⊛ z 143 ⊛ z 1286)),
(2594, z 813 ⊛ z 1201 ⊹ z 838 ⊛ z 1201 ⊹ ie11 ⊛ z 81 ⊛ z 1291 ⊹ ie22 ⊛ z 82 ⊛ z 1286 ⊹ ie31 ⊛ z 52
    ⊛ z 1291 ⊹ ie31 ⊛ z 81 ⊛ z 1290 ⊹ ie33 ⊛ z 52 ⊛ z 1290 ⊹ if11 ⊛ z 90 ⊛ z 1294 ⊹ if11 ⊛ z 94 ⊛
    z 1293 ⊹ if22 ⊛ z 82 ⊛ z 1286 ⊹ z 43 ⊛ z 786 ⊛ z 1278 ⊹ z 43 ⊛ z 834 ⊛ z 1214 ⊹ z 43 ⊛ z 862 ⊛
    z 2539 ⊹ z 43 ⊛ z 867 ⊛ z 2540 ⊹ z 43 ⊛ z 874 ⊛ z 2539 ⊹ n 2 ⊛ ig31 ⊛ z 15 ⊛ z 110 ⊛ z 1285 ⊹
    n 2 ⊛ ig33 ⊛ z 15 ⊛ z 115 ⊛ z 1285 ⊹ mg ⊛ (z 210 ⊛ z 2547 ⊹ z 211 ⊛ z 2532 ⊹ z 214 ⊛ z 2528 ⊹
    z 216 ⊛ z 2545 ⊹ z 217 ⊛ z 2530 ⊹ z 213 ⊛ (z 2542 ⊹ z 2543)) ⊹ me ⊛ (z 159 ⊛ z 2576 ⊹ z 160 ⊛
    z 2553 ⊹ z 158 ⊛ z 141 ⊛ z 1201 ⊹ z 158 ⊛ z 167 ⊛ z 1201 ⊹ z 158 ⊛ z 169 ⊛ z 1286 ⊹ z 163 ⊛ z
    164 ⊛ z 1201 ⊹ z 163 ⊛ z 166 ⊛ z 1286 ⊹ z 5 ⊛ z 118 ⊛ z 141 ⊹ z 5 ⊛ z 118 ⊛ z 167 ⊹ z 9 ⊛ z
    143 ⊛ z 2553 ⊹ z 9 ⊛ z 145 ⊛ z 2576 ⊹ z 10 ⊛ z 126 ⊛ z 2576 ⊹ n 2 ⊛ d1 ⊛ z 146 ⊛ z 1285 ⊹ z
    163 ⊛ z 10 ⊛ z 143 ⊛ z 1201 ⊹ z 163 ⊛ z 10 ⊛ z 145 ⊛ z 1286 ⊹ z 6 ⊛ z 9 ⊛ z 118 ⊛ z 164 ⊝ z
    143 ⊛ z 1202 ⊝ n 2 ⊛ d1 ⊛ z 169 ⊛ z 1285 ⊝ z 158 ⊛ z 146 ⊛ z 1286 ⊝ z 9 ⊛ z 160 ⊛ z 1202 ⊝ z
    10 ⊛ z 164 ⊛ z 1202 ⊝ z 163 ⊛ z 9 ⊛ z 126 ⊛ z 1286 ⊝ z 6 ⊛ z 10 ⊛ z 118 ⊛ z 160) ⊹ mf ⊛ (z 148
    ⊛ z 1292 ⊹ z 149 ⊛ z 1210 ⊹ d2 ⊛ z 152 ⊛ z 1201 ⊹ d2 ⊛ z 154 ⊛ z 1286 ⊹ d3 ⊛ z 141 ⊛ z 1201 ⊹
    d3 ⊛ z 155 ⊛ z 1201 ⊹ d3 ⊛ z 157 ⊛ z 1286 ⊹ z 5 ⊛ z 118 ⊛ z 141 ⊹ z 5 ⊛ z 118 ⊛ z 155 ⊹ z 9 ⊛
    z 143 ⊛ z 1210 ⊹ z 9 ⊛ z 145 ⊛ z 1292 ⊹ z 10 ⊛ z 126 ⊛ z 1292 ⊹ n 2 ⊛ d1 ⊛ z 146 ⊛ z 1285 ⊹ d2
    ⊛ z 10 ⊛ z 143 ⊛ z 1201 ⊹ d2 ⊛ z 10 ⊛ z 145 ⊛ z 1286 ⊹ z 6 ⊛ z 9 ⊛ z 118 ⊛ z 152 ⊝ z 143 ⊛ z
    1202 ⊝ n 2 ⊛ d1 ⊛ z 157 ⊛ z 1285 ⊝ d3 ⊛ z 146 ⊛ z 1286 ⊝ z 9 ⊛ z 149 ⊛ z 1202 ⊝ z 10 ⊛ z 152 ⊛
    z 1202 ⊝ d2 ⊛ z 9 ⊛ z 126 ⊛ z 1286 ⊝ z 6 ⊛ z 10 ⊛ z 118 ⊛ z 149) ⊝ z 803 ⊛ z 1209 ⊝ z 818 ⊛ z
    1209 ⊝ n 2 ⊛ ic22 ⊛ z 51 ⊛ z 1285 ⊝ n 2 ⊛ id22 ⊛ z 51 ⊛ z 1285 ⊝ z 43 ⊛ z 795 ⊛ z 1279 ⊝ z 43
    ⊛ z 844 ⊛ z 1213 ⊝ z 43 ⊛ z 857 ⊛ z 2538 ⊝ z 43 ⊛ z 870 ⊛ z 2538 ⊝ n 2 ⊛ ig22 ⊛ z 17 ⊛ z 112 ⊛
    z 1285 ⊝ z 3 ⊛ z 5 ⊛ z 43 ⊛ z 770 ⊝ z 3 ⊛ z 6 ⊛ z 43 ⊛ z 774 ⊝ z 3 ⊛ z 6 ⊛ z 43 ⊛ z 808 ⊝ z 3
    ⊛ z 6 ⊛ z 43 ⊛ z 823 ⊝ mc ⊛ (z 128 ⊛ z 2552 ⊹ n 2 ⊛ l2 ⊛ z 137 ⊛ z 1285 ⊝ n 2 ⊛ l1 ⊛ z 138 ⊛ z
    1285 ⊝ z 5 ⊛ z 118 ⊛ z 132 ⊝ z 6 ⊛ z 118 ⊛ z 135)),
(2595, z 2592 ⊹ z 543 ⊛ z 2577 ⊹ z 548 ⊛ z 2593 ⊹ z 911 ⊛ z 1324 ⊹ z 920 ⊛ z 1551 ⊹ if22 ⊛ z 83 ⊛
    z 551 ⊛ z 1286 ⊝ z 540 ⊛ z 2579 ⊝ z 546 ⊛ z 2594 ⊝ z 915 ⊛ z 1498 ⊝ z 928 ⊛ z 1581 ⊝ z 934 ⊛ z
    1641),
(2596, z 2591 ⊹ z 543 ⊛ z 2578 ⊹ z 548 ⊛ z 2595 ⊹ z 551 ⊛ z 2585 ⊹ z 970 ⊛ z 1551 ⊹ z 971 ⊛ z 1324
    ⊝ z 540 ⊛ z 2581 ⊝ z 546 ⊛ z 2584 ⊝ z 967 ⊛ z 1581 ⊝ z 972 ⊛ z 1498 ⊝ z 975 ⊛ z 1641),
(2597, z 539 ⊛ z 2580 ⊹ z 542 ⊛ z 2575 ⊹ z 899 ⊛ z 1314 ⊹ z 900 ⊛ z 1495 ⊝ z 545 ⊛ z 2590 ⊝ z 922
    ⊛ z 1550),
(2598, z 542 ⊛ z 2577 ⊹ z 915 ⊛ z 1495 ⊝ z 539 ⊛ z 2579 ⊝ z 545 ⊛ z 2594 ⊝ z 911 ⊛ z 1314 ⊝ z 920
    ⊛ z 1550 ⊝ z 934 ⊛ z 1642 ⊝ n 2 ⊛ id22 ⊛ z 53 ⊛ z 1285 ⊝ if22 ⊛ z 83 ⊛ z 550 ⊛ z 1286),
(2599, z 2597 ⊹ z 543 ⊛ z 2555 ⊹ z 548 ⊛ z 2598 ⊹ z 551 ⊛ z 2567 ⊹ z 955 ⊛ z 1551 ⊹ z 957 ⊛ z 1324
    ⊝ z 540 ⊛ z 2558 ⊝ z 546 ⊛ z 2566 ⊝ z 954 ⊛ z 1581 ⊝ z 958 ⊛ z 1498 ⊝ z 961 ⊛ z 1641),
(2600, z 964 ⊛ z 2596 ⊹ z 979 ⊛ z 2568 ⊝ z 965 ⊛ z 2586 ⊝ z 978 ⊛ z 2599),
(2601, z 539 ⊛ z 2537 ⊹ z 907 ⊛ z 1495 ⊝ z 542 ⊛ z 2526 ⊝ z 545 ⊛ z 2548 ⊝ z 902 ⊛ z 1550 ⊝ z 906
    ⊛ z 1314),
(2602, z 965 ⊛ z 2571 ⊹ z 973 ⊛ z 2599 ⊝ z 960 ⊛ z 2596 ⊝ z 979 ⊛ z 2572),
(2603, z 983 ⊛ z 2587 ⊹ z 1003 ⊛ z 2549 ⊝ z 905 ⊛ z 2600 ⊝ z 982 ⊛ z 2602 ⊝ z 1004 ⊛ z 2601),
(2604, z 4 ⊛ z 6 ⊛ q4p ⊝ z 3 ⊛ z 6 ⊛ z 1582 ⊝ z 3 ⊛ z 5 ⊛ q5p),
(2605, neg (z 4) ⊛ z 6 ⊛ z 1582 ⊝ z 3 ⊛ z 6 ⊛ q4p ⊝ z 4 ⊛ z 5 ⊛ q5p),
(2606, z 3 ⊛ z 2604 ⊹ z 4 ⊛ z 2605),
(2607, z 3 ⊛ z 5 ⊛ z 1582 ⊝ z 3 ⊛ z 6 ⊛ q5p ⊝ z 4 ⊛ z 5 ⊛ q4p),
(2608, q4p ⊛ z 2606 ⊝ z 43 ⊛ z 1552 ⊛ z 271 ⊝ z 43 ⊛ q3p ⊛ z 2607),
(2609, z 4 ⊛ z 5 ⊛ z 1582 ⊹ z 3 ⊛ z 5 ⊛ q4p ⊝ z 4 ⊛ z 6 ⊛ q5p),
(2610, z 3 ⊛ z 2607 ⊹ z 4 ⊛ z 2609),
(2611, z 6 ⊛ pow (z 3) 2 ⊛ q4p ⊹ z 6 ⊛ pow (z 4) 2 ⊛ q4p ⊹ z 3 ⊛ z 2605 ⊝ z 4 ⊛ z 2604),
(2612, z 1582 ⊛ z 278 ⊹ q4p ⊛ z 2610 ⊹ q5p ⊛ z 2611 ⊹ z 43 ⊛ z 1552 ⊛ z 268 ⊹ z 43 ⊛ q3p ⊛ z 2604),
(2613, z 47 ⊛ z 1582 ⊹ z 51 ⊛ z 1552 ⊹ z 1263 ⊛ q4p ⊝ n 2 ⊛ z 1285 ⊛ q5p),
(2614, neg (z 50) ⊛ z 1552 ⊝ z 3 ⊛ z 5 ⊛ z 43 ⊛ q3p ⊝ z 6 ⊛ (pow (z 3) 2 ⊹ pow (z 4) 2) ⊛ q4p),
(2615, z 48 ⊛ z 1582 ⊹ z 52 ⊛ z 1552 ⊹ z 5 ⊛ (pow (z 3) 2 ⊹ pow (z 4) 2) ⊛ q4p ⊝ z 3 ⊛ z 6 ⊛ z 43
    ⊛ q3p),
(2616, ic31 ⊛ z 2614 ⊹ ic33 ⊛ z 2615),
(2617, z 266 ⊛ z 2616 ⊹ z 758 ⊛ z 2613 ⊝ z 759 ⊛ z 2615 ⊝ ic22 ⊛ z 267 ⊛ z 2613),
(2618, z 31 ⊛ z 2607 ⊹ z 42 ⊛ z 2605 ⊹ z 3 ⊛ z 5 ⊛ z 269 ⊹ z 3 ⊛ z 6 ⊛ z 273 ⊝ z 32 ⊛ z 2609 ⊝ z
    41 ⊛ z 2604 ⊝ z 4 ⊛ z 5 ⊛ z 268 ⊝ z 4 ⊛ z 6 ⊛ z 271),
(2619, n 2 ⊛ pow (z 6) 2 ⊛ q5p ⊹ n 2 ⊛ z 41 ⊛ z 2609 ⊹ n 2 ⊛ z 42 ⊛ z 2607 ⊹ n 2 ⊛ z 3 ⊛ z 5 ⊛ z
    271 ⊹ n 2 ⊛ z 4 ⊛ z 5 ⊛ z 273 ⊝ n 2 ⊛ z 5 ⊛ z 6 ⊛ z 1582 ⊝ n 2 ⊛ pow (z 5) 2 ⊛ q5p),
(2620, z 1552 ⊛ z 276 ⊹ z 1582 ⊛ z 275 ⊹ q4p ⊛ z 2618 ⊹ q5p ⊛ z 2619),
(2621, ic11 ⊛ z 2614 ⊹ ic31 ⊛ z 2615),
(2622, z 267 ⊛ z 2621 ⊹ z 757 ⊛ z 2615 ⊝ z 265 ⊛ z 2616 ⊝ z 758 ⊛ z 2614),
(2623, z 64 ⊛ z 1552 ⊹ z 65 ⊛ z 1582 ⊹ z 1199 ⊛ q4p ⊝ z 43 ⊛ z 1279 ⊛ q3p),
(2624, z 61 ⊛ z 1552 ⊝ z 62 ⊛ z 1582 ⊝ z 1198 ⊛ q4p ⊝ z 43 ⊛ z 1278 ⊛ q3p),
(2625, z 781 ⊛ z 2623 ⊹ id11 ⊛ z 283 ⊛ z 2624 ⊝ z 783 ⊛ z 2624 ⊝ id11 ⊛ z 281 ⊛ z 2623),
(2626, z 759 ⊛ z 2614 ⊹ ic22 ⊛ z 265 ⊛ z 2613 ⊝ z 266 ⊛ z 2621 ⊝ z 757 ⊛ z 2613),
(2627, z 6 ⊛ z 8 ⊛ (pow (z 3) 2 ⊹ pow (z 4) 2) ⊛ q6p ⊹ z 7 ⊛ z 2606 ⊝ z 5 ⊛ z 7 ⊛ (pow (z 3) 2 ⊹
    pow (z 4) 2) ⊛ q6p ⊝ z 8 ⊛ z 2610),
(2628, z 3 ⊛ z 5 ⊛ z 8 ⊛ q6p ⊹ z 3 ⊛ z 6 ⊛ z 7 ⊛ q6p ⊝ z 7 ⊛ z 2607 ⊝ z 8 ⊛ z 2604),
(2629, q4p ⊛ z 2627 ⊹ z 43 ⊛ z 1552 ⊛ z 285 ⊹ z 43 ⊛ q3p ⊛ z 2628 ⊝ z 1582 ⊛ z 286 ⊝ z 8 ⊛ q5p ⊛ z
    2611),
(2630, z 783 ⊛ z 2613 ⊹ id11 ⊛ z 282 ⊛ z 2623 ⊝ z 782 ⊛ z 2623 ⊝ id22 ⊛ z 283 ⊛ z 2613),
(2631, z 7 ⊛ z 2610 ⊹ z 8 ⊛ z 2606 ⊝ z 5 ⊛ z 8 ⊛ (pow (z 3) 2 ⊹ pow (z 4) 2) ⊛ q6p ⊝ z 6 ⊛ z 7 ⊛
    (pow (z 3) 2 ⊹ pow (z 4) 2) ⊛ q6p),
(2632, z 3 ⊛ z 6 ⊛ z 8 ⊛ q6p ⊹ z 7 ⊛ z 2604 ⊝ z 3 ⊛ z 5 ⊛ z 7 ⊛ q6p ⊝ z 8 ⊛ z 2607),
(2633, z 1582 ⊛ z 290 ⊹ q4p ⊛ z 2631 ⊹ z 7 ⊛ q5p ⊛ z 2611 ⊹ z 43 ⊛ z 1552 ⊛ z 289 ⊹ z 43 ⊛ q3p ⊛ z
    2632),
(2634, z 782 ⊛ z 2624 ⊹ id22 ⊛ z 281 ⊛ z 2613 ⊝ z 781 ⊛ z 2613 ⊝ id11 ⊛ z 282 ⊛ z 2624),
(2635, z 5 ⊛ z 10 ⊛ z 1582 ⊹ z 5 ⊛ z 9 ⊛ q7p ⊝ z 6 ⊛ z 10 ⊛ q5p),
(2636, neg (z 3) ⊛ z 5 ⊛ z 10 ⊛ q4p ⊝ z 4 ⊛ z 2635),
(2637, z 4 ⊛ z 5 ⊛ z 10 ⊛ q4p ⊝ z 3 ⊛ z 2635),
(2638, z 29 ⊛ z 2604 ⊹ z 32 ⊛ z 2636 ⊹ z 4 ⊛ z 6 ⊛ z 301 ⊹ z 3 ⊛ z 5 ⊛ z 10 ⊛ z 269 ⊝ z 31 ⊛ z
    2637 ⊝ z 69 ⊛ z 2605 ⊝ z 3 ⊛ z 6 ⊛ z 300 ⊝ z 4 ⊛ z 5 ⊛ z 10 ⊛ z 268)]

/-- _mooreriderlean2012.py:5153-5288 -/
def part42 : List (ℕ × E) := [
(2639, neg (z 6) ⊛ z 10 ⊛ z 1582 ⊝ z 5 ⊛ z 10 ⊛ q5p ⊝ z 6 ⊛ z 9 ⊛ q7p),
(2640, z 4 ⊛ z 2639 ⊝ z 3 ⊛ z 6 ⊛ z 10 ⊛ q4p),
(2641, z 4 ⊛ z 6 ⊛ z 10 ⊛ q4p ⊹ z 3 ⊛ z 2639),
(2642, z 5 ⊛ z 26 ⊛ z 1582 ⊹ z 10 ⊛ pow (z 5) 2 ⊛ q5p ⊹ z 5 ⊛ z 295 ⊹ z 6 ⊛ z 2635 ⊹ z 31 ⊛ z 2640
    ⊹ z 32 ⊛ z 2641 ⊹ z 71 ⊛ z 2605 ⊹ z 72 ⊛ z 2604 ⊝ z 6 ⊛ z 26 ⊛ q5p ⊝ z 3 ⊛ z 6 ⊛ z 298 ⊝ z 4 ⊛
    z 6 ⊛ z 297 ⊝ z 3 ⊛ z 6 ⊛ z 10 ⊛ z 268 ⊝ z 4 ⊛ z 6 ⊛ z 10 ⊛ z 269),
(2643, z 5 ⊛ z 9 ⊛ z 1582 ⊝ z 5 ⊛ z 10 ⊛ q7p ⊝ z 6 ⊛ z 9 ⊛ q5p),
(2644, z 3 ⊛ z 2643 ⊝ z 4 ⊛ z 5 ⊛ z 9 ⊛ q4p),
(2645, z 6 ⊛ z 10 ⊛ q7p ⊝ z 6 ⊛ z 9 ⊛ z 1582 ⊝ z 5 ⊛ z 9 ⊛ q5p),
(2646, neg (z 3) ⊛ z 5 ⊛ z 9 ⊛ q4p ⊝ z 4 ⊛ z 2643),
(2647, z 6 ⊛ z 23 ⊛ q5p ⊹ z 5 ⊛ z 6 ⊛ z 9 ⊛ q5p ⊹ z 32 ⊛ z 2644 ⊹ z 66 ⊛ z 2604 ⊹ z 4 ⊛ z 6 ⊛ z
    306 ⊹ z 3 ⊛ z 5 ⊛ z 9 ⊛ z 268 ⊹ z 4 ⊛ z 5 ⊛ z 9 ⊛ z 269 ⊝ z 5 ⊛ z 23 ⊛ z 1582 ⊝ z 5 ⊛ z 305 ⊝
    z 6 ⊛ z 2645 ⊝ z 31 ⊛ z 2646 ⊝ z 70 ⊛ z 2605 ⊝ z 3 ⊛ z 6 ⊛ z 304),
(2648, z 4 ⊛ z 5 ⊛ z 9 ⊛ q4p ⊝ z 3 ⊛ z 2643),
(2649, z 1582 ⊛ z 299 ⊹ q4p ⊛ z 2638 ⊹ q5p ⊛ z 2642 ⊹ q7p ⊛ z 2647 ⊹ z 43 ⊛ z 1552 ⊛ z 308 ⊹ z 43
    ⊛ q3p ⊛ z 2648),
(2650, z 3 ⊛ z 2635 ⊝ z 4 ⊛ z 5 ⊛ z 10 ⊛ q4p),
(2651, z 3 ⊛ z 5 ⊛ z 9 ⊛ q4p ⊹ z 4 ⊛ z 2643),
(2652, z 27 ⊛ z 2650 ⊹ z 29 ⊛ z 2644 ⊹ z 30 ⊛ z 2651 ⊹ z 66 ⊛ z 2636 ⊹ z 3 ⊛ z 5 ⊛ z 9 ⊛ z 300 ⊹ z
    3 ⊛ z 5 ⊛ z 10 ⊛ z 310 ⊹ z 4 ⊛ z 5 ⊛ z 9 ⊛ z 313 ⊝ z 4 ⊛ z 5 ⊛ z 10 ⊛ z 304),
(2653, z 4 ⊛ z 2645 ⊝ z 3 ⊛ z 6 ⊛ z 9 ⊛ q4p),
(2654, z 4 ⊛ z 6 ⊛ z 9 ⊛ q4p ⊹ z 3 ⊛ z 2645),
(2655, z 24 ⊛ z 2639 ⊹ z 25 ⊛ z 2643 ⊹ z 29 ⊛ z 2653 ⊹ z 67 ⊛ z 2636 ⊹ z 5 ⊛ z 9 ⊛ z 296 ⊹ z 3 ⊛ z
    6 ⊛ z 9 ⊛ z 313 ⊝ z 30 ⊛ z 2654 ⊝ z 68 ⊛ z 2650 ⊝ z 6 ⊛ z 10 ⊛ z 303 ⊝ z 3 ⊛ z 5 ⊛ z 10 ⊛ z
    316 ⊝ z 4 ⊛ z 5 ⊛ z 10 ⊛ z 315 ⊝ z 4 ⊛ z 6 ⊛ z 9 ⊛ z 300),
(2656, n 2 ⊛ z 25 ⊛ z 2639 ⊹ n 2 ⊛ z 29 ⊛ z 2636 ⊹ n 2 ⊛ z 30 ⊛ z 2650 ⊹ n 2 ⊛ z 3 ⊛ z 5 ⊛ z 10 ⊛
    z 313 ⊝ n 2 ⊛ z 6 ⊛ z 10 ⊛ z 296 ⊝ n 2 ⊛ z 4 ⊛ z 5 ⊛ z 10 ⊛ z 300),
(2657, z 1582 ⊛ z 317 ⊹ q4p ⊛ z 2652 ⊹ q5p ⊛ z 2655 ⊹ q7p ⊛ z 2656 ⊹ z 43 ⊛ z 1552 ⊛ z 268 ⊹ z 43
    ⊛ q3p ⊛ z 2604),
(2658, z 76 ⊛ z 1582 ⊹ z 82 ⊛ z 1552 ⊹ z 1201 ⊛ q3p ⊹ z 1264 ⊛ q4p ⊹ z 1286 ⊛ q5p),
(2659, z 73 ⊛ z 1582 ⊹ z 81 ⊛ z 1552 ⊹ z 1271 ⊛ q4p ⊹ z 1291 ⊛ q5p ⊹ z 1317 ⊛ q7p ⊝ z 1209 ⊛ q3p),
(2660, z 52 ⊛ z 1552 ⊹ z 78 ⊛ z 1582 ⊹ z 1270 ⊛ q4p ⊹ z 1290 ⊛ q5p ⊹ n 2 ⊛ z 1316 ⊛ q7p ⊝ z 3 ⊛ z
    6 ⊛ z 43 ⊛ q3p),
(2661, ie31 ⊛ z 2659 ⊹ ie33 ⊛ z 2660),
(2662, z 293 ⊛ z 2661 ⊹ z 801 ⊛ z 2658 ⊝ z 802 ⊛ z 2660 ⊝ ie22 ⊛ z 294 ⊛ z 2658),
(2663, z 3 ⊛ z 6 ⊛ z 310 ⊹ z 4 ⊛ z 6 ⊛ z 308 ⊹ z 3 ⊛ z 5 ⊛ z 9 ⊛ z 269 ⊝ z 27 ⊛ z 2604 ⊝ z 28 ⊛ z
    2605 ⊝ z 31 ⊛ z 2648 ⊝ z 32 ⊛ z 2651 ⊝ z 4 ⊛ z 5 ⊛ z 9 ⊛ z 268),
(2664, z 9 ⊛ pow (z 6) 2 ⊛ q5p ⊹ z 5 ⊛ z 2645 ⊹ z 27 ⊛ z 2609 ⊹ z 41 ⊛ z 2651 ⊹ z 4 ⊛ z 5 ⊛ z 310
    ⊹ z 3 ⊛ z 5 ⊛ z 9 ⊛ z 271 ⊹ z 4 ⊛ z 5 ⊛ z 9 ⊛ z 273 ⊝ z 6 ⊛ z 23 ⊛ z 1582 ⊝ z 5 ⊛ z 23 ⊛ q5p ⊝
    z 6 ⊛ z 305 ⊝ z 28 ⊛ z 2607 ⊝ z 42 ⊛ z 2648 ⊝ z 3 ⊛ z 5 ⊛ z 308),
(2665, z 1582 ⊛ z 311 ⊹ q4p ⊛ z 2663 ⊹ q5p ⊛ z 2664 ⊹ z 43 ⊛ z 1552 ⊛ z 313 ⊹ z 43 ⊛ q3p ⊛ z 2650),
(2666, ie11 ⊛ z 2659 ⊹ ie31 ⊛ z 2660),
(2667, z 294 ⊛ z 2666 ⊹ z 800 ⊛ z 2660 ⊝ z 292 ⊛ z 2661 ⊝ z 801 ⊛ z 2659),
(2668, z 94 ⊛ z 1552 ⊹ z 95 ⊛ z 1582 ⊹ z 1273 ⊛ q4p ⊹ z 1293 ⊛ q5p ⊹ z 1319 ⊛ q7p ⊝ z 43 ⊛ z 1213
    ⊛ q3p),
(2669, z 90 ⊛ z 1552 ⊹ z 91 ⊛ z 1582 ⊹ z 1274 ⊛ q4p ⊹ z 1294 ⊛ q5p ⊹ z 1320 ⊛ q7p ⊹ z 43 ⊛ z 1214
    ⊛ q3p),
(2670, z 830 ⊛ z 2668 ⊹ if11 ⊛ z 323 ⊛ z 2669 ⊝ z 832 ⊛ z 2669 ⊝ if11 ⊛ z 321 ⊛ z 2668),
(2671, z 802 ⊛ z 2659 ⊹ ie22 ⊛ z 292 ⊛ z 2658 ⊝ z 293 ⊛ z 2666 ⊝ z 800 ⊛ z 2658),
(2672, z 11 ⊛ z 2638 ⊝ z 11 ⊛ z 80 ⊛ z 1643 ⊝ z 12 ⊛ z 74 ⊛ z 1643 ⊝ z 11 ⊛ z 1270 ⊛ q8p ⊝ z 12 ⊛
    z 1271 ⊛ q8p ⊝ z 12 ⊛ z 2652),
(2673, z 11 ⊛ z 2642 ⊝ z 11 ⊛ z 78 ⊛ z 1643 ⊝ z 12 ⊛ z 73 ⊛ z 1643 ⊝ z 11 ⊛ z 1290 ⊛ q8p ⊝ z 12 ⊛
    z 1291 ⊛ q8p ⊝ z 12 ⊛ z 2655),
(2674, z 11 ⊛ z 2647 ⊝ z 11 ⊛ z 79 ⊛ z 1643 ⊝ z 12 ⊛ z 75 ⊛ z 1643 ⊝ n 2 ⊛ z 11 ⊛ z 1316 ⊛ q8p ⊝ z
    12 ⊛ z 1317 ⊛ q8p ⊝ z 12 ⊛ z 2656),
(2675, z 3 ⊛ z 6 ⊛ z 11 ⊛ q8p ⊹ z 3 ⊛ z 5 ⊛ z 9 ⊛ z 12 ⊛ q8p ⊹ z 11 ⊛ z 2648 ⊝ z 11 ⊛ z 32 ⊛ z
    1643 ⊝ z 12 ⊛ z 28 ⊛ z 1643 ⊝ z 12 ⊛ z 2604),
(2676, z 1582 ⊛ z 325 ⊹ q4p ⊛ z 2672 ⊹ q5p ⊛ z 2673 ⊹ q7p ⊛ z 2674 ⊹ z 43 ⊛ z 1552 ⊛ z 324 ⊹ z 43
    ⊛ q3p ⊛ z 2675),
(2677, z 76 ⊛ z 1582 ⊹ z 82 ⊛ z 1552 ⊹ z 83 ⊛ z 1643 ⊹ z 1201 ⊛ q3p ⊹ z 1264 ⊛ q4p ⊹ z 1286 ⊛ q5p),
(2678, z 832 ⊛ z 2677 ⊹ if11 ⊛ z 322 ⊛ z 2668 ⊝ z 831 ⊛ z 2668 ⊝ if22 ⊛ z 323 ⊛ z 2677),
(2679, z 11 ⊛ z 74 ⊛ z 1643 ⊹ z 11 ⊛ z 1271 ⊛ q8p ⊹ z 11 ⊛ z 2652 ⊹ z 12 ⊛ z 2638 ⊝ z 12 ⊛ z 80 ⊛
    z 1643 ⊝ z 12 ⊛ z 1270 ⊛ q8p),
(2680, z 11 ⊛ z 73 ⊛ z 1643 ⊹ z 11 ⊛ z 1291 ⊛ q8p ⊹ z 11 ⊛ z 2655 ⊹ z 12 ⊛ z 2642 ⊝ z 12 ⊛ z 78 ⊛
    z 1643 ⊝ z 12 ⊛ z 1290 ⊛ q8p),
(2681, z 11 ⊛ z 75 ⊛ z 1643 ⊹ z 11 ⊛ z 1317 ⊛ q8p ⊹ z 11 ⊛ z 2656 ⊹ z 12 ⊛ z 2647 ⊝ z 12 ⊛ z 79 ⊛
    z 1643 ⊝ n 2 ⊛ z 12 ⊛ z 1316 ⊛ q8p),
(2682, z 11 ⊛ z 28 ⊛ z 1643 ⊹ z 3 ⊛ z 6 ⊛ z 12 ⊛ q8p ⊹ z 11 ⊛ z 2604 ⊹ z 12 ⊛ z 2648 ⊝ z 12 ⊛ z 32
    ⊛ z 1643 ⊝ z 3 ⊛ z 5 ⊛ z 9 ⊛ z 11 ⊛ q8p),
(2683, z 1582 ⊛ z 330 ⊹ q4p ⊛ z 2679 ⊹ q5p ⊛ z 2680 ⊹ q7p ⊛ z 2681 ⊹ z 43 ⊛ z 1552 ⊛ z 329 ⊹ z 43
    ⊛ q3p ⊛ z 2682),
(2684, z 831 ⊛ z 2669 ⊹ if22 ⊛ z 321 ⊛ z 2677 ⊝ z 830 ⊛ z 2677 ⊝ if11 ⊛ z 322 ⊛ z 2669),
(2685, (pow (z 3) 2 ⊹ pow (z 4) 2) ⊛ (z 13 ⊛ z 6 ⊝ z 14 ⊛ z 5)),
(2686, z 13 ⊛ z 2606 ⊹ z 14 ⊛ z 2610),
(2687, z 14 ⊛ z 2604 ⊝ z 13 ⊛ z 2607),
(2688, q4p ⊛ z 2686 ⊹ z 14 ⊛ z 1582 ⊛ z 278 ⊹ z 14 ⊛ q5p ⊛ z 2611 ⊹ z 43 ⊛ z 1552 ⊛ z 341 ⊹ z 43 ⊛
    q3p ⊛ z 2687),
(2689, z 20 ⊛ z 2610 ⊝ z 17 ⊛ z 1263 ⊛ q9p ⊝ z 15 ⊛ z 2618 ⊝ z 18 ⊛ z 2606 ⊝ z 5 ⊛ (pow (z 3) 2 ⊹
    pow (z 4) 2) ⊛ z 338 ⊝ z 6 ⊛ (pow (z 3) 2 ⊹ pow (z 4) 2) ⊛ z 337),
(2690, n 2 ⊛ z 17 ⊛ z 1285 ⊛ q9p ⊹ z 20 ⊛ z 2611 ⊝ z 15 ⊛ z 2619),
(2691, z 18 ⊛ z 2607 ⊹ z 20 ⊛ z 2604 ⊹ z 3 ⊛ z 6 ⊛ z 338 ⊝ z 3 ⊛ z 5 ⊛ z 337),
(2692, z 1582 ⊛ z 349 ⊹ q4p ⊛ z 2689 ⊹ q5p ⊛ z 2690 ⊹ z 43 ⊛ z 1552 ⊛ z 348 ⊹ z 43 ⊛ q3p ⊛ z 2691),
(2693, z 17 ⊛ z 1263 ⊹ z 5 ⊛ z 19 ⊛ (pow (z 3) 2 ⊹ pow (z 4) 2) ⊹ z 6 ⊛ z 16 ⊛ (pow (z 3) 2 ⊹ pow
    (z 4) 2)),
(2694, z 112 ⊛ z 1552 ⊹ z 114 ⊛ z 1582 ⊹ z 2693 ⊛ q4p ⊹ z 43 ⊛ z 2540 ⊛ q3p ⊝ n 2 ⊛ z 17 ⊛ z 1285
    ⊛ q5p),
(2695, z 110 ⊛ z 1552 ⊹ z 111 ⊛ z 1582 ⊝ z 2685 ⊛ q4p ⊝ z 43 ⊛ z 2538 ⊛ q3p),
(2696, z 5 ⊛ z 20 ⊛ (pow (z 3) 2 ⊹ pow (z 4) 2) ⊹ z 6 ⊛ z 18 ⊛ (pow (z 3) 2 ⊹ pow (z 4) 2) ⊝ z 15
    ⊛ z 1263),
(2697, z 115 ⊛ z 1552 ⊹ z 116 ⊛ z 1582 ⊹ z 2696 ⊛ q4p ⊹ z 43 ⊛ z 2539 ⊛ q3p ⊹ n 2 ⊛ z 15 ⊛ z 1285
    ⊛ q5p),
(2698, ig31 ⊛ z 2695 ⊹ ig33 ⊛ z 2697),
(2699, z 335 ⊛ z 2698 ⊹ z 852 ⊛ z 2694 ⊝ z 853 ⊛ z 2697 ⊝ ig22 ⊛ z 336 ⊛ z 2694),
(2700, z 5 ⊛ z 20 ⊛ (pow (z 3) 2 ⊹ pow (z 4) 2) ⊛ q9p ⊹ z 6 ⊛ z 18 ⊛ (pow (z 3) 2 ⊹ pow (z 4) 2) ⊛
    q9p ⊹ z 17 ⊛ z 2618 ⊹ z 19 ⊛ z 2610 ⊝ z 15 ⊛ z 1263 ⊛ q9p ⊝ z 16 ⊛ z 2606),
(2701, n 2 ⊛ z 15 ⊛ z 1285 ⊛ q9p ⊹ z 17 ⊛ z 2619 ⊹ z 19 ⊛ z 2611),
(2702, z 3 ⊛ z 5 ⊛ z 18 ⊛ q9p ⊹ z 16 ⊛ z 2607 ⊹ z 19 ⊛ z 2604 ⊝ z 3 ⊛ z 6 ⊛ z 20 ⊛ q9p),
(2703, z 1582 ⊛ z 346 ⊹ q4p ⊛ z 2700 ⊹ q5p ⊛ z 2701 ⊹ z 43 ⊛ z 1552 ⊛ z 344 ⊹ z 43 ⊛ q3p ⊛ z 2702),
(2704, ig11 ⊛ z 2695 ⊹ ig31 ⊛ z 2697),
(2705, z 336 ⊛ z 2704 ⊹ z 851 ⊛ z 2697 ⊝ z 334 ⊛ z 2698 ⊝ z 852 ⊛ z 2695),
(2706, z 853 ⊛ z 2695 ⊹ ig22 ⊛ z 334 ⊛ z 2694 ⊝ z 335 ⊛ z 2704 ⊝ z 851 ⊛ z 2694),
(2707, z 2057 ⊛ z 1263),
(2708, z 1552 ⊛ (z 354 ⊹ z 3 ⊛ z 43 ⊛ z 353)),
(2709, z 1552 ⊛ (z 43 ⊛ z 352 ⊹ z 118 ⊛ z 356)),
(2710, neg (z 5) ⊛ z 360 ⊝ z 5 ⊛ z 2708 ⊝ z 6 ⊛ z 359 ⊝ z 41 ⊛ z 2709 ⊝ z 4 ⊛ z 5 ⊛ z 358),
(2711, (pow (z 3) 2 ⊹ pow (z 4) 2) ⊛ (z 21 ⊛ z 5 ⊝ z 22 ⊛ z 6)),
(2712, z 2710 ⊹ z 22 ⊛ z 2620 ⊹ (z 173 ⊛ q4p ⊹ z 174 ⊛ q5p ⊹ z 175 ⊛ q3p) ⊛ z 2613 ⊹ (z 174 ⊛ z
    1582 ⊹ z 175 ⊛ z 1552 ⊹ z 21 ⊛ z 1263 ⊛ q4p ⊝ n 2 ⊛ z 21 ⊛ z 1285 ⊛ q5p) ⊛ z 266 ⊝ (z 170 ⊛
    q4p ⊹ z 171 ⊛ q3p ⊝ z 172 ⊛ q5p) ⊛ z 2615 ⊝ (z 171 ⊛ z 1552 ⊹ z 2541 ⊛ q3p ⊝ z 172 ⊛ z 1582 ⊝
    z 2711 ⊛ q4p) ⊛ z 267),
(2713, z 5 ⊛ z 359 ⊹ z 31 ⊛ z 2709 ⊝ z 6 ⊛ z 360 ⊝ z 6 ⊛ z 2708 ⊝ z 4 ⊛ z 6 ⊛ z 358)]

/-- _mooreriderlean2012.py:5289-5372 -/
def part43 : List (ℕ × E) := [
(2714, z 2713 ⊹ z 21 ⊛ z 2620 ⊹ (z 170 ⊛ q4p ⊹ z 171 ⊛ q3p ⊝ z 172 ⊛ q5p) ⊛ z 2614 ⊹ (z 171 ⊛ z
    1552 ⊹ z 2541 ⊛ q3p ⊝ z 172 ⊛ z 1582 ⊝ z 2711 ⊛ q4p) ⊛ z 265 ⊝ (z 176 ⊛ q4p ⊹ z 177 ⊛ q5p ⊹ z
    178 ⊛ q3p) ⊛ z 2613 ⊝ (z 177 ⊛ z 1582 ⊹ z 178 ⊛ z 1552 ⊹ z 22 ⊛ z 1263 ⊛ q4p ⊝ n 2 ⊛ z 22 ⊛ z
    1285 ⊛ q5p) ⊛ z 266),
(2715, z 13 ⊛ z 2712 ⊹ z 14 ⊛ z 2714),
(2716, l5 ⊛ z 2696 ⊹ l6 ⊛ z 2685),
(2717, z 2715 ⊹ l6 ⊛ z 2703 ⊹ (n 2 ⊛ l5 ⊛ z 17 ⊛ z 1285 ⊛ q5p ⊝ z 202 ⊛ z 1552 ⊝ z 204 ⊛ z 1582 ⊝
    l5 ⊛ z 2693 ⊛ q4p ⊝ l5 ⊛ z 43 ⊛ z 2540 ⊛ q3p) ⊛ z 335 ⊝ (z 201 ⊛ q9p ⊹ z 202 ⊛ q3p ⊹ z 203 ⊛
    q4p ⊹ z 204 ⊛ q5p) ⊛ z 2694 ⊝ (z 197 ⊛ q3p ⊹ z 198 ⊛ q5p ⊹ z 199 ⊛ q4p ⊝ z 200 ⊛ q9p) ⊛ z 2697
    ⊝ (z 197 ⊛ z 1552 ⊹ z 198 ⊛ z 1582 ⊹ z 2543 ⊛ q3p ⊹ z 2716 ⊛ q4p ⊹ n 2 ⊛ l5 ⊛ z 15 ⊛ z 1285 ⊛
    q5p) ⊛ z 336),
(2718, z 21 ⊛ z 19 ⊛ z 1263 ⊝ z 17 ⊛ z 2711 ⊝ z 22 ⊛ z 16 ⊛ z 1263),
(2719, neg (z 21) ⊛ z 2612 ⊝ z 22 ⊛ z 2608),
(2720, z 2719 ⊹ (z 176 ⊛ q4p ⊹ z 177 ⊛ q5p ⊹ z 178 ⊛ q3p) ⊛ z 2615 ⊹ (z 177 ⊛ z 1582 ⊹ z 178 ⊛ z
    1552 ⊹ z 22 ⊛ z 1263 ⊛ q4p ⊝ n 2 ⊛ z 22 ⊛ z 1285 ⊛ q5p) ⊛ z 267 ⊝ z 3 ⊛ z 2709 ⊝ (z 173 ⊛ q4p
    ⊹ z 174 ⊛ q5p ⊹ z 175 ⊛ q3p) ⊛ z 2614 ⊝ (z 174 ⊛ z 1582 ⊹ z 175 ⊛ z 1552 ⊹ z 21 ⊛ z 1263 ⊛ q4p
    ⊝ n 2 ⊛ z 21 ⊛ z 1285 ⊛ q5p) ⊛ z 265),
(2721, z 17 ⊛ z 2720 ⊹ z 19 ⊛ z 2714 ⊝ z 16 ⊛ z 2712),
(2722, l5 ⊛ z 2692 ⊝ l6 ⊛ z 2688),
(2723, z 2721 ⊹ z 2722 ⊹ (z 201 ⊛ q9p ⊹ z 202 ⊛ q3p ⊹ z 203 ⊛ q4p ⊹ z 204 ⊛ q5p) ⊛ z 2695 ⊹ (z 205
    ⊛ q9p ⊹ z 206 ⊛ q3p ⊹ z 207 ⊛ q4p ⊹ z 208 ⊛ q5p) ⊛ z 2697 ⊝ (n 2 ⊛ l5 ⊛ z 17 ⊛ z 1285 ⊛ q5p ⊝
    z 202 ⊛ z 1552 ⊝ z 204 ⊛ z 1582 ⊝ l5 ⊛ z 2693 ⊛ q4p ⊝ l5 ⊛ z 43 ⊛ z 2540 ⊛ q3p) ⊛ z 334 ⊝ (n 2
    ⊛ l6 ⊛ z 17 ⊛ z 1285 ⊛ q5p ⊝ z 206 ⊛ z 1552 ⊝ z 208 ⊛ z 1582 ⊝ l6 ⊛ z 2693 ⊛ q4p ⊝ l6 ⊛ z 43 ⊛
    z 2540 ⊛ q3p) ⊛ z 336),
(2724, z 15 ⊛ z 2711 ⊹ z 21 ⊛ z 20 ⊛ z 1263 ⊝ z 22 ⊛ z 18 ⊛ z 1263),
(2725, z 20 ⊛ z 2714 ⊝ z 15 ⊛ z 2720 ⊝ z 18 ⊛ z 2712),
(2726, z 2725 ⊹ (z 197 ⊛ q3p ⊹ z 198 ⊛ q5p ⊹ z 199 ⊛ q4p ⊝ z 200 ⊛ q9p) ⊛ z 2695 ⊹ (z 197 ⊛ z 1552
    ⊹ z 198 ⊛ z 1582 ⊹ z 2543 ⊛ q3p ⊹ z 2716 ⊛ q4p ⊹ n 2 ⊛ l5 ⊛ z 15 ⊛ z 1285 ⊛ q5p) ⊛ z 334 ⊹ (n
    2 ⊛ l6 ⊛ z 17 ⊛ z 1285 ⊛ q5p ⊝ z 206 ⊛ z 1552 ⊝ z 208 ⊛ z 1582 ⊝ l6 ⊛ z 2693 ⊛ q4p ⊝ l6 ⊛ z 43
    ⊛ z 2540 ⊛ q3p) ⊛ z 335 ⊝ l5 ⊛ z 2703 ⊝ (z 205 ⊛ q9p ⊹ z 206 ⊛ q3p ⊹ z 207 ⊛ q4p ⊹ z 208 ⊛
    q5p) ⊛ z 2694),
(2727, (l1 ⊛ z 5 ⊹ l2 ⊛ z 6) ⊛ (pow (z 3) 2 ⊹ pow (z 4) 2)),
(2728, z 2713 ⊹ (z 128 ⊛ q5p ⊹ z 129 ⊛ q4p ⊹ z 130 ⊛ q3p) ⊛ z 2614 ⊝ l1 ⊛ z 2620 ⊝ (z 134 ⊛ q4p ⊹
    z 135 ⊛ q5p ⊹ z 136 ⊛ q3p) ⊛ z 2613 ⊝ (z 135 ⊛ z 1582 ⊹ z 136 ⊛ z 1552 ⊹ l2 ⊛ z 1263 ⊛ q4p ⊝ n
    2 ⊛ l2 ⊛ z 1285 ⊛ q5p) ⊛ z 266 ⊝ (z 2552 ⊛ q3p ⊝ z 128 ⊛ z 1582 ⊝ z 130 ⊛ z 1552 ⊝ z 2727 ⊛
    q4p) ⊛ z 265),
(2729, z 2710 ⊹ l2 ⊛ z 2620 ⊹ (z 2552 ⊛ q3p ⊝ z 128 ⊛ z 1582 ⊝ z 130 ⊛ z 1552 ⊝ z 2727 ⊛ q4p) ⊛ z
    267 ⊝ (z 128 ⊛ q5p ⊹ z 129 ⊛ q4p ⊹ z 130 ⊛ q3p) ⊛ z 2615 ⊝ (z 131 ⊛ q4p ⊹ z 132 ⊛ q5p ⊹ z 133
    ⊛ q3p) ⊛ z 2613 ⊝ (z 132 ⊛ z 1582 ⊹ z 133 ⊛ z 1552 ⊹ l1 ⊛ z 1263 ⊛ q4p ⊝ n 2 ⊛ l1 ⊛ z 1285 ⊛
    q5p) ⊛ z 266),
(2730, l1 ⊛ z 2612 ⊝ l2 ⊛ z 2608),
(2731, z 2730 ⊹ (z 131 ⊛ q4p ⊹ z 132 ⊛ q5p ⊹ z 133 ⊛ q3p) ⊛ z 2614 ⊹ (z 134 ⊛ q4p ⊹ z 135 ⊛ q5p ⊹
    z 136 ⊛ q3p) ⊛ z 2615 ⊹ (z 132 ⊛ z 1582 ⊹ z 133 ⊛ z 1552 ⊹ l1 ⊛ z 1263 ⊛ q4p ⊝ n 2 ⊛ l1 ⊛ z
    1285 ⊛ q5p) ⊛ z 265 ⊹ (z 135 ⊛ z 1582 ⊹ z 136 ⊛ z 1552 ⊹ l2 ⊛ z 1263 ⊛ q4p ⊝ n 2 ⊛ l2 ⊛ z 1285
    ⊛ q5p) ⊛ z 267 ⊝ z 3 ⊛ z 2709),
(2732, z 2713 ⊹ (z 143 ⊛ q5p ⊹ z 144 ⊛ q4p ⊹ z 145 ⊛ q3p) ⊛ z 2614 ⊝ d1 ⊛ z 2620 ⊝ (z 1202 ⊛ q3p ⊝
    z 143 ⊛ z 1582 ⊝ z 145 ⊛ z 1552 ⊝ z 1267 ⊛ q4p) ⊛ z 265),
(2733, z 158 ⊛ z 1270 ⊝ d2 ⊛ z 1271 ⊝ l4 ⊛ z 1271),
(2734, (z 159 ⊛ q3p ⊹ z 160 ⊛ q5p ⊹ z 161 ⊛ q7p ⊹ z 162 ⊛ q4p) ⊛ z 2659 ⊹ (z 159 ⊛ z 1552 ⊹ z 160
    ⊛ z 1582 ⊹ z 2553 ⊛ q3p ⊹ z 2574 ⊛ q7p ⊹ z 2576 ⊛ q5p ⊹ z 2733 ⊛ q4p) ⊛ z 292 ⊝ z 158 ⊛ z 2665
    ⊝ (z 164 ⊛ q5p ⊹ z 165 ⊛ q4p ⊹ z 166 ⊛ q3p) ⊛ z 2658 ⊝ (z 164 ⊛ z 1582 ⊹ z 166 ⊛ z 1552 ⊹ z
    163 ⊛ z 1201 ⊛ q3p ⊹ z 163 ⊛ z 1264 ⊛ q4p ⊹ z 163 ⊛ z 1286 ⊛ q5p) ⊛ z 293),
(2735, z 2710 ⊹ (z 1202 ⊛ q3p ⊝ z 143 ⊛ z 1582 ⊝ z 145 ⊛ z 1552 ⊝ z 1267 ⊛ q4p) ⊛ z 267 ⊝ (z 140 ⊛
    q4p ⊹ z 141 ⊛ q5p ⊹ z 142 ⊛ q3p) ⊛ z 2613 ⊝ (z 143 ⊛ q5p ⊹ z 144 ⊛ q4p ⊹ z 145 ⊛ q3p) ⊛ z 2615
    ⊝ (z 141 ⊛ z 1582 ⊹ z 142 ⊛ z 1552 ⊹ d1 ⊛ z 1263 ⊛ q4p ⊝ n 2 ⊛ d1 ⊛ z 1285 ⊛ q5p) ⊛ z 266),
(2736, d1 ⊛ z 2612 ⊹ (z 140 ⊛ q4p ⊹ z 141 ⊛ q5p ⊹ z 142 ⊛ q3p) ⊛ z 2614 ⊹ (z 141 ⊛ z 1582 ⊹ z 142
    ⊛ z 1552 ⊹ d1 ⊛ z 1263 ⊛ q4p ⊝ n 2 ⊛ d1 ⊛ z 1285 ⊛ q5p) ⊛ z 265 ⊝ z 3 ⊛ z 2709),
(2737, z 158 ⊛ z 2657 ⊝ d2 ⊛ z 2649 ⊝ l4 ⊛ z 2649),
(2738, z 2737 ⊹ (z 164 ⊛ q5p ⊹ z 165 ⊛ q4p ⊹ z 166 ⊛ q3p) ⊛ z 2660 ⊹ (z 167 ⊛ q5p ⊹ z 168 ⊛ q4p ⊹
    z 169 ⊛ q3p) ⊛ z 2659 ⊹ (z 164 ⊛ z 1582 ⊹ z 166 ⊛ z 1552 ⊹ z 163 ⊛ z 1201 ⊛ q3p ⊹ z 163 ⊛ z
    1264 ⊛ q4p ⊹ z 163 ⊛ z 1286 ⊛ q5p) ⊛ z 294 ⊹ (z 167 ⊛ z 1582 ⊹ z 169 ⊛ z 1552 ⊹ z 158 ⊛ z 1201
    ⊛ q3p ⊹ z 158 ⊛ z 1264 ⊛ q4p ⊹ z 158 ⊛ z 1286 ⊛ q5p) ⊛ z 292),
(2739, z 163 ⊛ z 2665 ⊝ (z 167 ⊛ q5p ⊹ z 168 ⊛ q4p ⊹ z 169 ⊛ q3p) ⊛ z 2658 ⊝ (z 159 ⊛ q3p ⊹ z 160
    ⊛ q5p ⊹ z 161 ⊛ q7p ⊹ z 162 ⊛ q4p) ⊛ z 2660 ⊝ (z 159 ⊛ z 1552 ⊹ z 160 ⊛ z 1582 ⊹ z 2553 ⊛ q3p
    ⊹ z 2574 ⊛ q7p ⊹ z 2576 ⊛ q5p ⊹ z 2733 ⊛ q4p) ⊛ z 294 ⊝ (z 167 ⊛ z 1582 ⊹ z 169 ⊛ z 1552 ⊹ z
    158 ⊛ z 1201 ⊛ q3p ⊹ z 158 ⊛ z 1264 ⊛ q4p ⊹ z 158 ⊛ z 1286 ⊛ q5p) ⊛ z 293),
(2740, (z 148 ⊛ q3p ⊹ z 149 ⊛ q5p ⊹ z 150 ⊛ q7p ⊹ z 151 ⊛ q4p) ⊛ z 2659 ⊹ (z 148 ⊛ z 1552 ⊹ z 149
    ⊛ z 1582 ⊹ z 1210 ⊛ q3p ⊹ z 1272 ⊛ q4p ⊹ z 1292 ⊛ q5p ⊹ z 1318 ⊛ q7p) ⊛ z 292 ⊝ d3 ⊛ z 2665 ⊝
    (z 152 ⊛ q5p ⊹ z 153 ⊛ q4p ⊹ z 154 ⊛ q3p) ⊛ z 2658 ⊝ (z 152 ⊛ z 1582 ⊹ z 154 ⊛ z 1552 ⊹ d2 ⊛ z
    1201 ⊛ q3p ⊹ d2 ⊛ z 1264 ⊛ q4p ⊹ d2 ⊛ z 1286 ⊛ q5p) ⊛ z 293),
(2741, d3 ⊛ z 2657 ⊝ d2 ⊛ z 2649),
(2742, z 2741 ⊹ (z 152 ⊛ q5p ⊹ z 153 ⊛ q4p ⊹ z 154 ⊛ q3p) ⊛ z 2660 ⊹ (z 155 ⊛ q5p ⊹ z 156 ⊛ q4p ⊹
    z 157 ⊛ q3p) ⊛ z 2659 ⊹ (z 152 ⊛ z 1582 ⊹ z 154 ⊛ z 1552 ⊹ d2 ⊛ z 1201 ⊛ q3p ⊹ d2 ⊛ z 1264 ⊛
    q4p ⊹ d2 ⊛ z 1286 ⊛ q5p) ⊛ z 294 ⊹ (z 155 ⊛ z 1582 ⊹ z 157 ⊛ z 1552 ⊹ d3 ⊛ z 1201 ⊛ q3p ⊹ d3 ⊛
    z 1264 ⊛ q4p ⊹ d3 ⊛ z 1286 ⊛ q5p) ⊛ z 292),
(2743, d2 ⊛ z 2665 ⊝ (z 155 ⊛ q5p ⊹ z 156 ⊛ q4p ⊹ z 157 ⊛ q3p) ⊛ z 2658 ⊝ (z 148 ⊛ q3p ⊹ z 149 ⊛
    q5p ⊹ z 150 ⊛ q7p ⊹ z 151 ⊛ q4p) ⊛ z 2660 ⊝ (z 148 ⊛ z 1552 ⊹ z 149 ⊛ z 1582 ⊹ z 1210 ⊛ q3p ⊹
    z 1272 ⊛ q4p ⊹ z 1292 ⊛ q5p ⊹ z 1318 ⊛ q7p) ⊛ z 294 ⊝ (z 155 ⊛ z 1582 ⊹ z 157 ⊛ z 1552 ⊹ d3 ⊛
    z 1201 ⊛ q3p ⊹ d3 ⊛ z 1264 ⊛ q4p ⊹ d3 ⊛ z 1286 ⊛ q5p) ⊛ z 293)]

/-- _mooreriderlean2012.py:5373-5458 -/
def part44 : List (ℕ × E) := [
(2744, z 45 ⊛ z 2617 ⊹ z 46 ⊛ z 2622 ⊹ z 46 ⊛ z 2625 ⊹ z 49 ⊛ z 2626 ⊹ z 60 ⊛ z 2630 ⊹ z 63 ⊛ z
    2634 ⊹ z 74 ⊛ z 2662 ⊹ z 77 ⊛ z 2667 ⊹ z 77 ⊛ z 2670 ⊹ z 80 ⊛ z 2671 ⊹ z 92 ⊛ z 2678 ⊹ z 97 ⊛
    z 2684 ⊹ z 109 ⊛ z 2699 ⊹ z 113 ⊛ z 2705 ⊹ z 117 ⊛ z 2706 ⊹ z 1199 ⊛ z 796 ⊹ z 1199 ⊛ z 797 ⊹
    z 1263 ⊛ z 769 ⊹ z 1263 ⊛ z 778 ⊹ z 1263 ⊛ z 792 ⊹ z 1263 ⊛ z 798 ⊹ z 1264 ⊛ z 816 ⊹ z 1264 ⊛
    z 827 ⊹ z 1264 ⊛ z 842 ⊹ z 1264 ⊛ z 849 ⊹ z 1270 ⊛ z 812 ⊹ z 1270 ⊛ z 826 ⊹ z 1270 ⊛ z 828 ⊹ z
    1271 ⊛ z 807 ⊹ z 1271 ⊛ z 821 ⊹ z 1271 ⊛ z 829 ⊹ z 1273 ⊛ z 847 ⊹ z 1273 ⊛ z 848 ⊹ z 1274 ⊛ z
    837 ⊹ z 1274 ⊛ z 850 ⊹ z 2693 ⊛ z 868 ⊹ z 2693 ⊛ z 877 ⊹ z 2696 ⊛ z 863 ⊹ z 2696 ⊛ z 876 ⊹ z
    2696 ⊛ z 878 ⊹ ic11 ⊛ z 45 ⊛ z 2608 ⊹ ic22 ⊛ z 46 ⊛ z 2620 ⊹ ic31 ⊛ z 45 ⊛ z 2612 ⊹ ic31 ⊛ z
    49 ⊛ z 2608 ⊹ ic33 ⊛ z 49 ⊛ z 2612 ⊹ id11 ⊛ z 60 ⊛ z 2629 ⊹ id11 ⊛ z 63 ⊛ z 2633 ⊹ id22 ⊛ z 46
    ⊛ z 2620 ⊹ ie11 ⊛ z 74 ⊛ z 2649 ⊹ ie22 ⊛ z 77 ⊛ z 2665 ⊹ ie31 ⊛ z 74 ⊛ z 2657 ⊹ ie31 ⊛ z 80 ⊛
    z 2649 ⊹ ie33 ⊛ z 80 ⊛ z 2657 ⊹ if11 ⊛ z 92 ⊛ z 2676 ⊹ if11 ⊛ z 97 ⊛ z 2683 ⊹ if22 ⊛ z 77 ⊛ z
    2665 ⊹ ig11 ⊛ z 109 ⊛ z 2688 ⊹ ig22 ⊛ z 113 ⊛ z 2703 ⊹ ig31 ⊛ z 109 ⊛ z 2692 ⊹ ig31 ⊛ z 117 ⊛
    z 2688 ⊹ ig33 ⊛ z 117 ⊛ z 2692 ⊹ z 5 ⊛ (pow (z 3) 2 ⊹ pow (z 4) 2) ⊛ z 765 ⊹ z 5 ⊛ (pow (z 3)
    2 ⊹ pow (z 4) 2) ⊛ z 777 ⊹ z 5 ⊛ (pow (z 3) 2 ⊹ pow (z 4) 2) ⊛ z 779 ⊹ mg ⊛ (z 209 ⊛ z 2717 ⊹
    z 212 ⊛ z 2723 ⊹ z 215 ⊛ z 2726 ⊹ (z 2716 ⊹ z 2718) ⊛ z 400 ⊹ (z 2707 ⊹ l6 ⊛ z 2693) ⊛ z 399 ⊹
    (z 2724 ⊝ l5 ⊛ z 2693) ⊛ z 401) ⊝ z 1198 ⊛ z 787 ⊝ z 1198 ⊛ z 799 ⊝ z 2685 ⊛ z 858 ⊝ z 2685 ⊛
    z 872 ⊝ z 2685 ⊛ z 879 ⊝ md ⊛ z 3 ⊛ z 119 ⊛ z 2709 ⊝ z 6 ⊛ (pow (z 3) 2 ⊹ pow (z 4) 2) ⊛ z 762
    ⊝ z 6 ⊛ (pow (z 3) 2 ⊹ pow (z 4) 2) ⊛ z 773 ⊝ z 6 ⊛ (pow (z 3) 2 ⊹ pow (z 4) 2) ⊛ z 780 ⊝ mc ⊛
    (z 131 ⊛ z 2728 ⊹ l1 ⊛ z 1263 ⊛ z 369 ⊝ z 134 ⊛ z 2729 ⊝ z 139 ⊛ z 2731 ⊝ z 2727 ⊛ z 368 ⊝ l2
    ⊛ z 1263 ⊛ z 367) ⊝ me ⊛ (z 140 ⊛ z 2732 ⊹ z 140 ⊛ z 2734 ⊹ z 168 ⊛ z 2732 ⊹ z 168 ⊛ z 2734 ⊹
    d1 ⊛ z 1263 ⊛ z 374 ⊹ d1 ⊛ z 1263 ⊛ z 386 ⊹ z 158 ⊛ z 1264 ⊛ z 374 ⊹ z 158 ⊛ z 1264 ⊛ z 386 ⊹
    z 10 ⊛ z 162 ⊛ z 2735 ⊹ z 10 ⊛ z 2733 ⊛ z 372 ⊝ z 147 ⊛ z 2736 ⊝ z 162 ⊛ z 2738 ⊝ z 165 ⊛ z
    2739 ⊝ z 1267 ⊛ z 373 ⊝ z 2733 ⊛ z 384 ⊝ z 163 ⊛ z 1264 ⊛ z 385 ⊝ z 9 ⊛ z 147 ⊛ z 2738 ⊝ z 9 ⊛
    z 162 ⊛ z 2736 ⊝ z 9 ⊛ z 165 ⊛ z 2735 ⊝ z 9 ⊛ z 1267 ⊛ z 384 ⊝ z 9 ⊛ z 2733 ⊛ z 373 ⊝ z 10 ⊛ z
    147 ⊛ z 2739 ⊝ z 10 ⊛ z 165 ⊛ z 2736 ⊝ z 10 ⊛ z 1267 ⊛ z 385 ⊝ z 163 ⊛ z 9 ⊛ z 1264 ⊛ z 372 ⊝
    z 163 ⊛ z 10 ⊛ z 1264 ⊛ z 373) ⊝ mf ⊛ (z 140 ⊛ z 2732 ⊹ z 140 ⊛ z 2740 ⊹ z 156 ⊛ z 2732 ⊹ z
    156 ⊛ z 2740 ⊹ d1 ⊛ z 1263 ⊛ z 374 ⊹ d1 ⊛ z 1263 ⊛ z 380 ⊹ d3 ⊛ z 1264 ⊛ z 374 ⊹ d3 ⊛ z 1264 ⊛
    z 380 ⊹ z 10 ⊛ z 151 ⊛ z 2735 ⊹ z 10 ⊛ z 1272 ⊛ z 372 ⊝ z 147 ⊛ z 2736 ⊝ z 151 ⊛ z 2742 ⊝ z
    153 ⊛ z 2743 ⊝ z 1267 ⊛ z 373 ⊝ z 1272 ⊛ z 378 ⊝ d2 ⊛ z 1264 ⊛ z 379 ⊝ z 9 ⊛ z 147 ⊛ z 2742 ⊝
    z 9 ⊛ z 151 ⊛ z 2736 ⊝ z 9 ⊛ z 153 ⊛ z 2735 ⊝ z 9 ⊛ z 1267 ⊛ z 378 ⊝ z 9 ⊛ z 1272 ⊛ z 373 ⊝ z
    10 ⊛ z 147 ⊛ z 2743 ⊝ z 10 ⊛ z 153 ⊛ z 2736 ⊝ z 10 ⊛ z 1267 ⊛ z 379 ⊝ d2 ⊛ z 9 ⊛ z 1264 ⊛ z
    372 ⊝ d2 ⊛ z 10 ⊛ z 1264 ⊛ z 373)),
(2745, mg ⊛ (z 182 ⊛ z 2717 ⊹ z 187 ⊛ z 2723 ⊹ z 192 ⊛ z 2726 ⊹ z 2534 ⊛ z 399 ⊹ z 2535 ⊛ z 400 ⊹
    z 2536 ⊛ z 401) ⊹ me ⊛ (z 120 ⊛ z 2735 ⊹ z 122 ⊛ z 2732 ⊹ z 122 ⊛ z 2734 ⊹ z 1307 ⊛ z 374 ⊹ z
    1307 ⊛ z 386 ⊹ z 1308 ⊛ z 372 ⊹ z 9 ⊛ z 120 ⊛ z 2739 ⊹ z 9 ⊛ z 1308 ⊛ z 385 ⊝ z 121 ⊛ z 2736 ⊝
    z 9 ⊛ z 121 ⊛ z 2738 ⊝ z 10 ⊛ z 120 ⊛ z 2738 ⊝ z 10 ⊛ z 121 ⊛ z 2739 ⊝ z 10 ⊛ z 1308 ⊛ z 384)
    ⊹ mf ⊛ (z 120 ⊛ z 2735 ⊹ z 122 ⊛ z 2732 ⊹ z 122 ⊛ z 2740 ⊹ z 1307 ⊛ z 374 ⊹ z 1307 ⊛ z 380 ⊹ z
    1308 ⊛ z 372 ⊹ z 9 ⊛ z 120 ⊛ z 2743 ⊹ z 9 ⊛ z 1308 ⊛ z 379 ⊝ z 121 ⊛ z 2736 ⊝ z 9 ⊛ z 121 ⊛ z
    2742 ⊝ z 10 ⊛ z 120 ⊛ z 2742 ⊝ z 10 ⊛ z 121 ⊛ z 2743 ⊝ z 10 ⊛ z 1308 ⊛ z 378) ⊝ md ⊛ (z 1 ⊛ z
    2708 ⊝ z 2 ⊛ z 2709) ⊝ mc ⊛ (z 121 ⊛ z 2731 ⊝ z 120 ⊛ z 2729 ⊝ z 122 ⊛ z 2728 ⊝ z 1307 ⊛ z 369
    ⊝ z 1308 ⊛ z 367)),
(2746, z 51 ⊛ z 2622 ⊹ z 51 ⊛ z 2625 ⊹ z 52 ⊛ z 2626 ⊹ z 52 ⊛ z 2671 ⊹ z 61 ⊛ z 2630 ⊹ z 64 ⊛ z
    2634 ⊹ z 81 ⊛ z 2662 ⊹ z 82 ⊛ z 2667 ⊹ z 82 ⊛ z 2670 ⊹ z 90 ⊛ z 2678 ⊹ z 94 ⊛ z 2684 ⊹ z 110 ⊛
    z 2699 ⊹ z 112 ⊛ z 2705 ⊹ z 115 ⊛ z 2706 ⊹ z 1201 ⊛ z 816 ⊹ z 1201 ⊛ z 827 ⊹ z 1201 ⊛ z 842 ⊹
    z 1201 ⊛ z 849 ⊹ ic22 ⊛ z 51 ⊛ z 2620 ⊹ ic31 ⊛ z 52 ⊛ z 2608 ⊹ ic33 ⊛ z 52 ⊛ z 2612 ⊹ id11 ⊛ z
    61 ⊛ z 2629 ⊹ id11 ⊛ z 64 ⊛ z 2633 ⊹ id22 ⊛ z 51 ⊛ z 2620 ⊹ ie11 ⊛ z 81 ⊛ z 2649 ⊹ ie22 ⊛ z 82
    ⊛ z 2665 ⊹ ie31 ⊛ z 52 ⊛ z 2649 ⊹ ie31 ⊛ z 81 ⊛ z 2657 ⊹ ie33 ⊛ z 52 ⊛ z 2657 ⊹ if11 ⊛ z 90 ⊛
    z 2676 ⊹ if11 ⊛ z 94 ⊛ z 2683 ⊹ if22 ⊛ z 82 ⊛ z 2665 ⊹ ig11 ⊛ z 110 ⊛ z 2688 ⊹ ig22 ⊛ z 112 ⊛
    z 2703 ⊹ ig31 ⊛ z 110 ⊛ z 2692 ⊹ ig31 ⊛ z 115 ⊛ z 2688 ⊹ ig33 ⊛ z 115 ⊛ z 2692 ⊹ md ⊛ z 118 ⊛
    z 2708 ⊹ z 43 ⊛ z 1214 ⊛ z 837 ⊹ z 43 ⊛ z 1214 ⊛ z 850 ⊹ z 43 ⊛ z 2539 ⊛ z 863 ⊹ z 43 ⊛ z 2539
    ⊛ z 876 ⊹ z 43 ⊛ z 2539 ⊛ z 878 ⊹ z 43 ⊛ z 2540 ⊛ z 868 ⊹ z 43 ⊛ z 2540 ⊛ z 877 ⊹ mg ⊛ (z 211
    ⊛ z 2717 ⊹ z 214 ⊛ z 2723 ⊹ z 217 ⊛ z 2726 ⊹ z 2545 ⊛ z 401 ⊹ z 2547 ⊛ z 399 ⊹ (z 2542 ⊹ z
    2543) ⊛ z 400) ⊹ me ⊛ (z 145 ⊛ z 2736 ⊹ z 146 ⊛ z 2732 ⊹ z 146 ⊛ z 2734 ⊹ z 159 ⊛ z 2738 ⊹ z
    166 ⊛ z 2739 ⊹ z 2553 ⊛ z 384 ⊹ z 163 ⊛ z 1201 ⊛ z 385 ⊹ z 6 ⊛ z 118 ⊛ z 372 ⊹ z 9 ⊛ z 145 ⊛ z
    2738 ⊹ z 9 ⊛ z 159 ⊛ z 2736 ⊹ z 9 ⊛ z 166 ⊛ z 2735 ⊹ z 9 ⊛ z 2553 ⊛ z 373 ⊹ z 10 ⊛ z 126 ⊛ z
    2738 ⊹ z 10 ⊛ z 145 ⊛ z 2739 ⊹ z 10 ⊛ z 166 ⊛ z 2736 ⊹ z 163 ⊛ z 9 ⊛ z 1201 ⊛ z 372 ⊹ z 163 ⊛
    z 10 ⊛ z 1201 ⊛ z 373 ⊹ z 6 ⊛ z 9 ⊛ z 118 ⊛ z 385 ⊝ z 126 ⊛ z 2735 ⊝ z 169 ⊛ z 2732 ⊝ z 169 ⊛
    z 2734 ⊝ z 1202 ⊛ z 373 ⊝ z 158 ⊛ z 1201 ⊛ z 374 ⊝ z 158 ⊛ z 1201 ⊛ z 386 ⊝ z 5 ⊛ z 118 ⊛ z
    374 ⊝ z 5 ⊛ z 118 ⊛ z 386 ⊝ z 9 ⊛ z 126 ⊛ z 2739 ⊝ z 9 ⊛ z 1202 ⊛ z 384 ⊝ z 10 ⊛ z 159 ⊛ z
    2735 ⊝ z 10 ⊛ z 1202 ⊛ z 385 ⊝ z 10 ⊛ z 2553 ⊛ z 372 ⊝ z 6 ⊛ z 10 ⊛ z 118 ⊛ z 384) ⊹ mf ⊛ (z
    145 ⊛ z 2736 ⊹ z 146 ⊛ z 2732 ⊹ z 146 ⊛ z 2740 ⊹ z 148 ⊛ z 2742 ⊹ z 154 ⊛ z 2743 ⊹ z 1210 ⊛ z
    378 ⊹ d2 ⊛ z 1201 ⊛ z 379 ⊹ z 6 ⊛ z 118 ⊛ z 372 ⊹ z 9 ⊛ z 145 ⊛ z 2742 ⊹ z 9 ⊛ z 148 ⊛ z 2736
    ⊹ z 9 ⊛ z 154 ⊛ z 2735 ⊹ z 9 ⊛ z 1210 ⊛ z 373 ⊹ z 10 ⊛ z 126 ⊛ z 2742 ⊹ z 10 ⊛ z 145 ⊛ z 2743
    ⊹ z 10 ⊛ z 154 ⊛ z 2736 ⊹ d2 ⊛ z 9 ⊛ z 1201 ⊛ z 372 ⊹ d2 ⊛ z 10 ⊛ z 1201 ⊛ z 373 ⊹ z 6 ⊛ z 9 ⊛
    z 118 ⊛ z 379 ⊝ z 126 ⊛ z 2735 ⊝ z 157 ⊛ z 2732 ⊝ z 157 ⊛ z 2740 ⊝ z 1202 ⊛ z 373 ⊝ d3 ⊛ z
    1201 ⊛ z 374 ⊝ d3 ⊛ z 1201 ⊛ z 380 ⊝ z 5 ⊛ z 118 ⊛ z 374 ⊝ z 5 ⊛ z 118 ⊛ z 380 ⊝ z 9 ⊛ z 126 ⊛
    z 2743 ⊝ z 9 ⊛ z 1202 ⊛ z 378 ⊝ z 10 ⊛ z 148 ⊛ z 2735 ⊝ z 10 ⊛ z 1202 ⊛ z 379 ⊝ z 10 ⊛ z 1210
    ⊛ z 372 ⊝ z 6 ⊛ z 10 ⊛ z 118 ⊛ z 378) ⊝ z 50 ⊛ z 2617 ⊝ z 1209 ⊛ z 807 ⊝ z 1209 ⊛ z 821 ⊝ z
    1209 ⊛ z 829 ⊝ ic11 ⊛ z 50 ⊛ z 2608 ⊝ ic31 ⊛ z 50 ⊛ z 2612 ⊝ z 43 ⊛ z 1213 ⊛ z 847 ⊝ z 43 ⊛ z
    1213 ⊛ z 848 ⊝ z 43 ⊛ z 1278 ⊛ z 787 ⊝ z 43 ⊛ z 1278 ⊛ z 799 ⊝ z 43 ⊛ z 1279 ⊛ z 796 ⊝ z 43 ⊛
    z 1279 ⊛ z 797 ⊝ z 43 ⊛ z 2538 ⊛ z 858 ⊝ z 43 ⊛ z 2538 ⊛ z 872 ⊝ z 43 ⊛ z 2538 ⊛ z 879 ⊝ z 3 ⊛
    z 5 ⊛ z 43 ⊛ z 762 ⊝ z 3 ⊛ z 5 ⊛ z 43 ⊛ z 773 ⊝ z 3 ⊛ z 5 ⊛ z 43 ⊛ z 780 ⊝ z 3 ⊛ z 6 ⊛ z 43 ⊛
    z 765 ⊝ z 3 ⊛ z 6 ⊛ z 43 ⊛ z 777 ⊝ z 3 ⊛ z 6 ⊛ z 43 ⊛ z 779 ⊝ z 3 ⊛ z 6 ⊛ z 43 ⊛ z 812 ⊝ z 3 ⊛
    z 6 ⊛ z 43 ⊛ z 826 ⊝ z 3 ⊛ z 6 ⊛ z 43 ⊛ z 828 ⊝ mc ⊛ (z 2552 ⊛ z 368 ⊹ z 5 ⊛ z 118 ⊛ z 369 ⊝ z
    130 ⊛ z 2731 ⊝ z 137 ⊛ z 2729 ⊝ z 138 ⊛ z 2728 ⊝ z 6 ⊛ z 118 ⊛ z 367))]

/-- _mooreriderlean2012.py:5459-5553 -/
def part45 : List (ℕ × E) := [
(2747, z 47 ⊛ z 2622 ⊹ z 47 ⊛ z 2625 ⊹ z 48 ⊛ z 2626 ⊹ z 65 ⊛ z 2634 ⊹ z 73 ⊛ z 2662 ⊹ z 76 ⊛ z
    2667 ⊹ z 76 ⊛ z 2670 ⊹ z 78 ⊛ z 2671 ⊹ z 91 ⊛ z 2678 ⊹ z 95 ⊛ z 2684 ⊹ z 111 ⊛ z 2699 ⊹ z 114
    ⊛ z 2705 ⊹ z 116 ⊛ z 2706 ⊹ z 1286 ⊛ z 816 ⊹ z 1286 ⊛ z 827 ⊹ z 1286 ⊛ z 842 ⊹ z 1286 ⊛ z 849
    ⊹ z 1290 ⊛ z 812 ⊹ z 1290 ⊛ z 826 ⊹ z 1290 ⊛ z 828 ⊹ z 1291 ⊛ z 807 ⊹ z 1291 ⊛ z 821 ⊹ z 1291
    ⊛ z 829 ⊹ z 1293 ⊛ z 847 ⊹ z 1293 ⊛ z 848 ⊹ z 1294 ⊛ z 837 ⊹ z 1294 ⊛ z 850 ⊹ ic22 ⊛ z 47 ⊛ z
    2620 ⊹ ic31 ⊛ z 48 ⊛ z 2608 ⊹ ic33 ⊛ z 48 ⊛ z 2612 ⊹ id11 ⊛ z 65 ⊛ z 2633 ⊹ id22 ⊛ z 47 ⊛ z
    2620 ⊹ ie11 ⊛ z 73 ⊛ z 2649 ⊹ ie22 ⊛ z 76 ⊛ z 2665 ⊹ ie31 ⊛ z 73 ⊛ z 2657 ⊹ ie31 ⊛ z 78 ⊛ z
    2649 ⊹ ie33 ⊛ z 78 ⊛ z 2657 ⊹ if11 ⊛ z 91 ⊛ z 2676 ⊹ if11 ⊛ z 95 ⊛ z 2683 ⊹ if22 ⊛ z 76 ⊛ z
    2665 ⊹ ig11 ⊛ z 111 ⊛ z 2688 ⊹ ig22 ⊛ z 114 ⊛ z 2703 ⊹ ig31 ⊛ z 111 ⊛ z 2692 ⊹ ig31 ⊛ z 116 ⊛
    z 2688 ⊹ ig33 ⊛ z 116 ⊛ z 2692 ⊹ n 2 ⊛ z 15 ⊛ z 1285 ⊛ z 863 ⊹ n 2 ⊛ z 15 ⊛ z 1285 ⊛ z 876 ⊹ n
    2 ⊛ z 15 ⊛ z 1285 ⊛ z 878 ⊹ mg ⊛ (z 210 ⊛ z 2717 ⊹ z 213 ⊛ z 2723 ⊹ z 216 ⊛ z 2726 ⊹ z 2528 ⊛
    z 400 ⊹ z 2530 ⊛ z 401 ⊹ z 2532 ⊛ z 399) ⊹ mc ⊛ (z 128 ⊛ z 2731 ⊹ z 135 ⊛ z 2729 ⊹ n 2 ⊛ l1 ⊛
    z 1285 ⊛ z 369 ⊝ z 132 ⊛ z 2728 ⊝ n 2 ⊛ l2 ⊛ z 1285 ⊛ z 367) ⊝ n 2 ⊛ z 1285 ⊛ z 769 ⊝ n 2 ⊛ z
    1285 ⊛ z 778 ⊝ n 2 ⊛ z 1285 ⊛ z 792 ⊝ n 2 ⊛ z 1285 ⊛ z 798 ⊝ z 62 ⊛ z 2630 ⊝ n 2 ⊛ z 17 ⊛ z
    1285 ⊛ z 868 ⊝ n 2 ⊛ z 17 ⊛ z 1285 ⊛ z 877 ⊝ id11 ⊛ z 62 ⊛ z 2629 ⊝ me ⊛ (z 141 ⊛ z 2732 ⊹ z
    141 ⊛ z 2734 ⊹ z 167 ⊛ z 2732 ⊹ z 167 ⊛ z 2734 ⊹ z 158 ⊛ z 1286 ⊛ z 374 ⊹ z 158 ⊛ z 1286 ⊛ z
    386 ⊹ z 10 ⊛ z 160 ⊛ z 2735 ⊹ z 10 ⊛ z 2576 ⊛ z 372 ⊝ z 143 ⊛ z 2736 ⊝ z 160 ⊛ z 2738 ⊝ z 164
    ⊛ z 2739 ⊝ z 2576 ⊛ z 384 ⊝ n 2 ⊛ d1 ⊛ z 1285 ⊛ z 374 ⊝ n 2 ⊛ d1 ⊛ z 1285 ⊛ z 386 ⊝ z 163 ⊛ z
    1286 ⊛ z 385 ⊝ z 9 ⊛ z 143 ⊛ z 2738 ⊝ z 9 ⊛ z 160 ⊛ z 2736 ⊝ z 9 ⊛ z 164 ⊛ z 2735 ⊝ z 9 ⊛ z
    2576 ⊛ z 373 ⊝ z 10 ⊛ z 143 ⊛ z 2739 ⊝ z 10 ⊛ z 164 ⊛ z 2736 ⊝ z 163 ⊛ z 9 ⊛ z 1286 ⊛ z 372 ⊝
    z 163 ⊛ z 10 ⊛ z 1286 ⊛ z 373) ⊝ mf ⊛ (z 141 ⊛ z 2732 ⊹ z 141 ⊛ z 2740 ⊹ z 155 ⊛ z 2732 ⊹ z
    155 ⊛ z 2740 ⊹ d3 ⊛ z 1286 ⊛ z 374 ⊹ d3 ⊛ z 1286 ⊛ z 380 ⊹ z 10 ⊛ z 149 ⊛ z 2735 ⊹ z 10 ⊛ z
    1292 ⊛ z 372 ⊝ z 143 ⊛ z 2736 ⊝ z 149 ⊛ z 2742 ⊝ z 152 ⊛ z 2743 ⊝ z 1292 ⊛ z 378 ⊝ n 2 ⊛ d1 ⊛
    z 1285 ⊛ z 374 ⊝ n 2 ⊛ d1 ⊛ z 1285 ⊛ z 380 ⊝ d2 ⊛ z 1286 ⊛ z 379 ⊝ z 9 ⊛ z 143 ⊛ z 2742 ⊝ z 9
    ⊛ z 149 ⊛ z 2736 ⊝ z 9 ⊛ z 152 ⊛ z 2735 ⊝ z 9 ⊛ z 1292 ⊛ z 373 ⊝ z 10 ⊛ z 143 ⊛ z 2743 ⊝ z 10
    ⊛ z 152 ⊛ z 2736 ⊝ d2 ⊛ z 9 ⊛ z 1286 ⊛ z 372 ⊝ d2 ⊛ z 10 ⊛ z 1286 ⊛ z 373)),
(2748, z 83 ⊛ (z 2670 ⊹ if22 ⊛ z 2665)),
(2749, mc ⊛ (z 123 ⊛ z 2729 ⊹ z 124 ⊛ z 2731 ⊹ z 125 ⊛ z 2728 ⊹ z 1256 ⊛ z 369 ⊹ z 1257 ⊛ z 367) ⊹
    mg ⊛ (z 183 ⊛ z 2717 ⊹ z 188 ⊛ z 2723 ⊹ z 193 ⊛ z 2726 ⊹ z 2523 ⊛ z 399 ⊹ z 2524 ⊛ z 400 ⊹ z
    2525 ⊛ z 401) ⊹ me ⊛ (z 123 ⊛ z 2735 ⊹ z 124 ⊛ z 2736 ⊹ z 125 ⊛ z 2732 ⊹ z 125 ⊛ z 2734 ⊹ z
    1256 ⊛ z 374 ⊹ z 1256 ⊛ z 386 ⊹ z 1257 ⊛ z 372 ⊹ z 9 ⊛ z 123 ⊛ z 2739 ⊹ z 9 ⊛ z 124 ⊛ z 2738 ⊹
    z 9 ⊛ z 1257 ⊛ z 385 ⊹ z 10 ⊛ z 124 ⊛ z 2739 ⊝ z 10 ⊛ z 123 ⊛ z 2738 ⊝ z 10 ⊛ z 1257 ⊛ z 384)
    ⊹ mf ⊛ (z 123 ⊛ z 2735 ⊹ z 124 ⊛ z 2736 ⊹ z 125 ⊛ z 2732 ⊹ z 125 ⊛ z 2740 ⊹ z 1256 ⊛ z 374 ⊹ z
    1256 ⊛ z 380 ⊹ z 1257 ⊛ z 372 ⊹ z 9 ⊛ z 123 ⊛ z 2743 ⊹ z 9 ⊛ z 124 ⊛ z 2742 ⊹ z 9 ⊛ z 1257 ⊛ z
    379 ⊹ z 10 ⊛ z 124 ⊛ z 2743 ⊝ z 10 ⊛ z 123 ⊛ z 2742 ⊝ z 10 ⊛ z 1257 ⊛ z 378) ⊝ md ⊛ (z 1 ⊛ z
    2709 ⊹ z 2 ⊛ z 2708)),
(2750, z 2744 ⊹ z 538 ⊛ z 2745 ⊹ z 544 ⊛ z 2746 ⊹ z 547 ⊛ z 2747 ⊹ z 549 ⊛ z 2748 ⊹ z 1501 ⊛ z 917
    ⊝ z 541 ⊛ z 2749 ⊝ z 1313 ⊛ z 913 ⊝ z 1549 ⊛ z 925 ⊝ z 1580 ⊛ z 933 ⊝ z 1640 ⊛ z 938),
(2751, z 768 ⊛ z 1263 ⊹ z 790 ⊛ z 1263 ⊹ z 794 ⊛ z 1199 ⊹ z 806 ⊛ z 1271 ⊹ z 811 ⊛ z 1270 ⊹ z 815
    ⊛ z 1264 ⊹ z 817 ⊛ z 1271 ⊹ z 822 ⊛ z 1270 ⊹ z 833 ⊛ z 1274 ⊹ z 840 ⊛ z 1264 ⊹ z 843 ⊛ z 1273
    ⊹ z 861 ⊛ z 2696 ⊹ z 865 ⊛ z 2693 ⊹ z 873 ⊛ z 2696 ⊹ ie22 ⊛ z 77 ⊛ z 1201 ⊹ if22 ⊛ z 77 ⊛ z
    1201 ⊹ if11 ⊛ z 43 ⊛ z 92 ⊛ z 1214 ⊹ ig22 ⊛ z 43 ⊛ z 113 ⊛ z 2540 ⊹ ig31 ⊛ z 43 ⊛ z 109 ⊛ z
    2539 ⊹ ig33 ⊛ z 43 ⊛ z 117 ⊛ z 2539 ⊹ z 5 ⊛ z 776 ⊛ (pow (z 3) 2 ⊹ pow (z 4) 2) ⊹ z 6 ⊛ z 761
    ⊛ (pow (z 3) 2 ⊹ pow (z 4) 2) ⊹ mg ⊛ (z 209 ⊛ z 2547 ⊹ z 215 ⊛ z 2545 ⊹ z 212 ⊛ (z 2542 ⊹ z
    2543) ⊹ z 214 ⊛ (z 2716 ⊹ z 2718) ⊹ z 211 ⊛ (z 2707 ⊹ l6 ⊛ z 2693) ⊹ z 217 ⊛ (z 2724 ⊝ l5 ⊛ z
    2693)) ⊹ me ⊛ (z 145 ⊛ z 1267 ⊹ z 159 ⊛ z 2733 ⊹ z 162 ⊛ z 2553 ⊹ d1 ⊛ z 169 ⊛ z 1263 ⊹ z 158
    ⊛ z 140 ⊛ z 1201 ⊹ z 158 ⊛ z 168 ⊛ z 1201 ⊹ z 158 ⊛ z 169 ⊛ z 1264 ⊹ z 163 ⊛ z 165 ⊛ z 1201 ⊹
    z 163 ⊛ z 166 ⊛ z 1264 ⊹ z 5 ⊛ z 118 ⊛ z 140 ⊹ z 5 ⊛ z 118 ⊛ z 168 ⊹ z 9 ⊛ z 145 ⊛ z 2733 ⊹ z
    9 ⊛ z 147 ⊛ z 2553 ⊹ z 9 ⊛ z 159 ⊛ z 1267 ⊹ z 10 ⊛ z 126 ⊛ z 2733 ⊹ z 10 ⊛ z 166 ⊛ z 1267 ⊹ z
    163 ⊛ z 10 ⊛ z 145 ⊛ z 1264 ⊹ z 163 ⊛ z 10 ⊛ z 147 ⊛ z 1201 ⊹ z 6 ⊛ z 9 ⊛ z 118 ⊛ z 165 ⊝ z
    147 ⊛ z 1202 ⊝ d1 ⊛ z 146 ⊛ z 1263 ⊝ z 158 ⊛ z 146 ⊛ z 1264 ⊝ z 9 ⊛ z 162 ⊛ z 1202 ⊝ z 10 ⊛ z
    165 ⊛ z 1202 ⊝ z 163 ⊛ z 9 ⊛ z 126 ⊛ z 1264 ⊝ z 6 ⊛ z 10 ⊛ z 118 ⊛ z 162) ⊹ mf ⊛ (z 145 ⊛ z
    1267 ⊹ z 148 ⊛ z 1272 ⊹ z 151 ⊛ z 1210 ⊹ d1 ⊛ z 157 ⊛ z 1263 ⊹ d2 ⊛ z 153 ⊛ z 1201 ⊹ d2 ⊛ z
    154 ⊛ z 1264 ⊹ d3 ⊛ z 140 ⊛ z 1201 ⊹ d3 ⊛ z 156 ⊛ z 1201 ⊹ d3 ⊛ z 157 ⊛ z 1264 ⊹ z 5 ⊛ z 118 ⊛
    z 140 ⊹ z 5 ⊛ z 118 ⊛ z 156 ⊹ z 9 ⊛ z 145 ⊛ z 1272 ⊹ z 9 ⊛ z 147 ⊛ z 1210 ⊹ z 9 ⊛ z 148 ⊛ z
    1267 ⊹ z 10 ⊛ z 126 ⊛ z 1272 ⊹ z 10 ⊛ z 154 ⊛ z 1267 ⊹ d2 ⊛ z 10 ⊛ z 145 ⊛ z 1264 ⊹ d2 ⊛ z 10
    ⊛ z 147 ⊛ z 1201 ⊹ z 6 ⊛ z 9 ⊛ z 118 ⊛ z 153 ⊝ z 147 ⊛ z 1202 ⊝ d1 ⊛ z 146 ⊛ z 1263 ⊝ d3 ⊛ z
    146 ⊛ z 1264 ⊝ z 9 ⊛ z 151 ⊛ z 1202 ⊝ z 10 ⊛ z 153 ⊛ z 1202 ⊝ d2 ⊛ z 9 ⊛ z 126 ⊛ z 1264 ⊝ z 6
    ⊛ z 10 ⊛ z 118 ⊛ z 151) ⊝ z 45 ⊛ z 2559 ⊝ z 45 ⊛ z 2563 ⊝ z 49 ⊛ z 2560 ⊝ z 49 ⊛ z 2564 ⊝ z 74
    ⊛ z 2562 ⊝ z 80 ⊛ z 2561 ⊝ z 785 ⊛ z 1198 ⊝ z 856 ⊛ z 2685 ⊝ z 869 ⊛ z 2685 ⊝ ie11 ⊛ z 74 ⊛ z
    1209 ⊝ ie31 ⊛ z 80 ⊛ z 1209 ⊝ id11 ⊛ z 43 ⊛ z 60 ⊛ z 1278 ⊝ id11 ⊛ z 43 ⊛ z 63 ⊛ z 1279 ⊝ if11
    ⊛ z 43 ⊛ z 97 ⊛ z 1213 ⊝ ig11 ⊛ z 43 ⊛ z 109 ⊛ z 2538 ⊝ ig31 ⊛ z 43 ⊛ z 117 ⊛ z 2538 ⊝ z 5 ⊛ z
    764 ⊛ (pow (z 3) 2 ⊹ pow (z 4) 2) ⊝ z 6 ⊛ z 772 ⊛ (pow (z 3) 2 ⊹ pow (z 4) 2) ⊝ mc ⊛ (z 139 ⊛
    z 2552 ⊹ l1 ⊛ z 138 ⊛ z 1263 ⊝ z 130 ⊛ z 2727 ⊝ l2 ⊛ z 137 ⊛ z 1263 ⊝ z 5 ⊛ z 118 ⊛ z 131 ⊝ z
    6 ⊛ z 118 ⊛ z 134)),
(2752, z 2751 ⊹ z 538 ⊛ z 2557 ⊹ z 544 ⊛ z 2565 ⊹ z 547 ⊛ z 2583 ⊹ z 916 ⊛ z 1501 ⊹ if22 ⊛ z 83 ⊛
    z 549 ⊛ z 1201 ⊝ z 541 ⊛ z 2554 ⊝ z 912 ⊛ z 1313 ⊝ z 919 ⊛ z 1549 ⊝ z 927 ⊛ z 1580 ⊝ z 936 ⊛ z
    1640),
(2753, z 1 ⊛ (pow (z 3) 2 ⊹ pow (z 4) 2) ⊛ z 1552),
(2754, z 2 ⊛ (pow (z 3) 2 ⊹ pow (z 4) 2) ⊛ z 1552),
(2755, z 6 ⊛ z 8 ⊛ q5p ⊹ z 6 ⊛ z 8 ⊛ q6p ⊝ z 5 ⊛ z 8 ⊛ z 1582 ⊝ z 6 ⊛ z 7 ⊛ z 1582 ⊝ z 5 ⊛ z 7 ⊛
    q5p ⊝ z 5 ⊛ z 7 ⊛ q6p),
(2756, z 5 ⊛ z 7 ⊛ z 1582 ⊝ z 6 ⊛ z 8 ⊛ z 1582 ⊝ z 5 ⊛ z 8 ⊛ q5p ⊝ z 5 ⊛ z 8 ⊛ q6p ⊝ z 6 ⊛ z 7 ⊛
    q5p ⊝ z 6 ⊛ z 7 ⊛ q6p),
(2757, rr ⊛ (z 1198 ⊛ z 560 ⊝ z 54 ⊛ z 288 ⊝ z 54 ⊛ z 2627 ⊝ z 55 ⊛ z 2631 ⊝ z 60 ⊛ z 2755 ⊝ z 63
    ⊛ z 2756 ⊝ z 220 ⊛ z 284 ⊝ z 1199 ⊛ z 561)),
(2758, z 3 ⊛ z 2757 ⊝ z 4 ⊛ z 1200 ⊛ q4p),
(2759, rr ⊛ (z 54 ⊛ z 290 ⊹ z 65 ⊛ z 2756 ⊹ z 7 ⊛ z 55 ⊛ z 2611 ⊝ z 62 ⊛ z 2755 ⊝ z 220 ⊛ z 286 ⊝
    z 8 ⊛ z 54 ⊛ z 2611)),
(2760, z 4 ⊛ z 1300 ⊛ q4p ⊝ z 3 ⊛ z 2759),
(2761, rr ⊛ (z 61 ⊛ z 2755 ⊹ z 64 ⊛ z 2756 ⊹ z 43 ⊛ z 54 ⊛ z 289 ⊹ z 43 ⊛ z 54 ⊛ z 2628 ⊹ z 43 ⊛ z
    55 ⊛ z 2632 ⊹ z 43 ⊛ z 220 ⊛ z 285 ⊝ z 43 ⊛ z 1278 ⊛ z 560 ⊝ z 43 ⊛ z 1279 ⊛ z 561)),
(2762, z 3 ⊛ z 2761 ⊝ z 4 ⊛ z 1280 ⊛ q4p),
(2763, u4 ⊛ z 2758 ⊹ u5 ⊛ z 2760 ⊹ z 1325 ⊛ z 556 ⊹ z 1502 ⊛ z 559 ⊹ z 1582 ⊛ z 565 ⊝ u1 ⊛ z 2753
    ⊝ u2 ⊛ z 2754 ⊝ u3 ⊛ z 2762 ⊝ z 1552 ⊛ z 563)]

/-- _mooreriderlean2012.py:5554-5660 -/
def part46 : List (ℕ × E) := [
(2764, z 1 ⊛ z 5 ⊛ z 1582 ⊹ z 1 ⊛ z 31 ⊛ z 1552 ⊹ z 2 ⊛ z 2605 ⊝ z 2 ⊛ z 6 ⊛ z 1552 ⊝ z 1 ⊛ z 6 ⊛
    q5p ⊝ z 2 ⊛ z 5 ⊛ q3p ⊝ z 1 ⊛ z 4 ⊛ z 6 ⊛ q3p),
(2765, z 2 ⊛ z 6 ⊛ q3p ⊝ z 1 ⊛ z 6 ⊛ z 1582 ⊝ z 1 ⊛ z 41 ⊛ z 1552 ⊝ z 2 ⊛ z 5 ⊛ z 1552 ⊝ z 1 ⊛ z 5
    ⊛ q5p ⊝ z 1 ⊛ z 4 ⊛ z 5 ⊛ q3p ⊝ z 2 ⊛ z 2609),
(2766, z 9 ⊛ z 2765 ⊝ z 1 ⊛ z 3 ⊛ z 10 ⊛ z 1552 ⊝ z 10 ⊛ z 1308 ⊛ q7p),
(2767, neg (z 1) ⊛ z 3 ⊛ z 9 ⊛ z 1552 ⊝ z 9 ⊛ z 1308 ⊛ q7p ⊝ z 10 ⊛ z 2765),
(2768, z 5 ⊛ z 122 ⊛ z 1582 ⊹ z 5 ⊛ z 1307 ⊛ q5p ⊹ z 5 ⊛ z 569 ⊹ z 6 ⊛ z 2764 ⊹ z 23 ⊛ z 2766 ⊹ z
    233 ⊛ z 2645 ⊹ z 6 ⊛ z 10 ⊛ z 572 ⊹ z 9 ⊛ z 1308 ⊛ z 305 ⊹ z 10 ⊛ z 1308 ⊛ z 296 ⊝ z 6 ⊛ z 122
    ⊛ q5p ⊝ z 25 ⊛ z 2767 ⊝ z 238 ⊛ z 2639 ⊝ z 6 ⊛ z 9 ⊛ z 571),
(2769, z 1 ⊛ z 6 ⊛ z 1552 ⊹ z 2 ⊛ z 5 ⊛ z 1582 ⊹ z 2 ⊛ z 31 ⊛ z 1552 ⊹ z 1 ⊛ z 5 ⊛ q3p ⊝ z 2 ⊛ z 6
    ⊛ q5p ⊝ z 2 ⊛ z 4 ⊛ z 6 ⊛ q3p ⊝ z 1 ⊛ z 2605),
(2770, z 1 ⊛ z 5 ⊛ z 1552 ⊹ z 1 ⊛ z 2609 ⊝ z 2 ⊛ z 6 ⊛ z 1582 ⊝ z 2 ⊛ z 41 ⊛ z 1552 ⊝ z 1 ⊛ z 6 ⊛
    q3p ⊝ z 2 ⊛ z 5 ⊛ q5p ⊝ z 2 ⊛ z 4 ⊛ z 5 ⊛ q3p),
(2771, z 9 ⊛ z 2770 ⊝ z 2 ⊛ z 3 ⊛ z 10 ⊛ z 1552 ⊝ z 10 ⊛ z 1257 ⊛ q7p),
(2772, neg (z 2) ⊛ z 3 ⊛ z 9 ⊛ z 1552 ⊝ z 9 ⊛ z 1257 ⊛ q7p ⊝ z 10 ⊛ z 2770),
(2773, z 5 ⊛ z 125 ⊛ z 1582 ⊹ z 5 ⊛ z 1256 ⊛ q5p ⊹ z 5 ⊛ z 574 ⊹ z 6 ⊛ z 2769 ⊹ z 23 ⊛ z 2771 ⊹ z
    234 ⊛ z 2645 ⊹ z 6 ⊛ z 10 ⊛ z 577 ⊹ z 9 ⊛ z 1257 ⊛ z 305 ⊹ z 10 ⊛ z 1257 ⊛ z 296 ⊝ z 6 ⊛ z 125
    ⊛ q5p ⊝ z 25 ⊛ z 2772 ⊝ z 239 ⊛ z 2639 ⊝ z 6 ⊛ z 9 ⊛ z 576),
(2774, z 5 ⊛ z 118 ⊛ z 1582 ⊹ z 5 ⊛ z 354 ⊝ z 6 ⊛ z 118 ⊛ q5p),
(2775, z 6 ⊛ z 29 ⊛ q5p ⊹ z 4 ⊛ z 10 ⊛ pow (z 5) 2 ⊛ q5p ⊹ z 25 ⊛ z 2605 ⊹ z 31 ⊛ z 2639 ⊝ z 5 ⊛ z
    29 ⊛ z 1582 ⊝ z 5 ⊛ z 300 ⊝ z 6 ⊛ z 2636 ⊝ z 4 ⊛ z 6 ⊛ z 296 ⊝ z 6 ⊛ z 10 ⊛ z 269),
(2776, z 23 ⊛ z 2636 ⊹ z 25 ⊛ z 2651 ⊹ z 27 ⊛ z 2639 ⊹ z 29 ⊛ z 2645 ⊹ z 4 ⊛ z 5 ⊛ z 9 ⊛ z 296 ⊝ z
    6 ⊛ z 9 ⊛ z 300 ⊝ z 6 ⊛ z 10 ⊛ z 310 ⊝ z 4 ⊛ z 5 ⊛ z 10 ⊛ z 305),
(2777, n 2 ⊛ z 33 ⊛ z 2775 ⊹ n 2 ⊛ z 34 ⊛ z 2776 ⊹ n 2 ⊛ z 1204 ⊛ z 579 ⊹ n 2 ⊛ z 1205 ⊛ z 580),
(2778, (n 2 ⊛ z 33 ⊛ z 1206 ⊛ z 581 ⊘ z 35 ⊹ z 36 ⊛ (n 4 ⊛ z 36 ⊛ z 2775 ⊹ (z 33 ⊛ z 1206 ⊛ z 581
    ⊝ n 2 ⊛ z 33 ⊛ z 35 ⊛ z 2777 ⊝ n 2 ⊛ z 35 ⊛ z 1205 ⊛ z 581 ⊝ n 2 ⊛ z 35 ⊛ z 1206 ⊛ z 580) ⊘
    hpow (z 35) 3)) ⊘ pow (z 36) 3),
(2779, z 39 ⊛ z 43 ⊛ z 2650 ⊹ qt 1 ⊛ rf ⊛ z 82 ⊛ z 2778 ⊹ qt 2 ⊛ rf ⊛ z 1201 ⊛ z 584 ⊹ qt 2 ⊛ rf ⊛
    z 43 ⊛ z 1212 ⊛ z 313),
(2780, neg (z 2774) ⊝ z 2779 ⊝ d3 ⊛ z 43 ⊛ z 2650),
(2781, neg (z 6) ⊛ z 118 ⊛ z 1582 ⊝ z 5 ⊛ z 118 ⊛ q5p ⊝ z 6 ⊛ z 354),
(2782, d2 ⊛ z 43 ⊛ z 2650 ⊹ d1 ⊛ z 10 ⊛ z 43 ⊛ z 2604 ⊝ z 9 ⊛ z 1202 ⊛ q7p ⊝ z 6 ⊛ z 10 ⊛ z 118 ⊛
    q7p ⊝ z 9 ⊛ z 2781),
(2783, (n 2 ⊛ z 34 ⊛ z 1206 ⊛ z 581 ⊘ z 35 ⊹ z 36 ⊛ (n 4 ⊛ z 36 ⊛ z 2776 ⊹ (z 34 ⊛ z 1206 ⊛ z 581
    ⊝ n 2 ⊛ z 34 ⊛ z 35 ⊛ z 2777 ⊝ n 2 ⊛ z 35 ⊛ z 1204 ⊛ z 581 ⊝ n 2 ⊛ z 35 ⊛ z 1206 ⊛ z 579) ⊘
    hpow (z 35) 3)) ⊘ pow (z 36) 3),
(2784, z 40 ⊛ z 43 ⊛ z 2650 ⊹ qt 1 ⊛ rf ⊛ z 82 ⊛ z 2783 ⊹ qt 2 ⊛ rf ⊛ z 1201 ⊛ z 582 ⊹ qt 2 ⊛ rf ⊛
    z 43 ⊛ z 1207 ⊛ z 313),
(2785, z 43 ⊛ (d2 ⊛ z 2648 ⊝ d3 ⊛ z 2604)),
(2786, z 10 ⊛ z 1202 ⊛ q7p ⊹ z 10 ⊛ z 2781 ⊹ d1 ⊛ z 9 ⊛ z 43 ⊛ z 2604 ⊝ z 6 ⊛ z 9 ⊛ z 118 ⊛ q7p ⊝
    z 2785),
(2787, z 12 ⊛ z 40 ⊛ z 90 ⊛ z 1643 ⊹ z 11 ⊛ z 40 ⊛ z 43 ⊛ z 1213 ⊛ q8p ⊹ z 12 ⊛ z 39 ⊛ z 43 ⊛ z
    1213 ⊛ q8p ⊹ z 12 ⊛ z 40 ⊛ z 43 ⊛ z 1214 ⊛ q8p ⊹ qt 2 ⊛ rf ⊛ z 12 ⊛ z 90 ⊛ z 1207 ⊛ q8p ⊹ z 11
    ⊛ z 39 ⊛ z 43 ⊛ z 2682 ⊹ qt 1 ⊛ rf ⊛ z 11 ⊛ z 94 ⊛ z 2778 ⊹ qt 2 ⊛ rf ⊛ z 11 ⊛ z 43 ⊛ z 1212 ⊛
    z 329 ⊹ qt 2 ⊛ rf ⊛ z 12 ⊛ z 43 ⊛ z 1213 ⊛ z 582 ⊝ z 11 ⊛ z 39 ⊛ z 90 ⊛ z 1643 ⊝ z 11 ⊛ z 40 ⊛
    z 94 ⊛ z 1643 ⊝ z 12 ⊛ z 39 ⊛ z 94 ⊛ z 1643 ⊝ z 11 ⊛ z 39 ⊛ z 43 ⊛ z 1214 ⊛ q8p ⊝ qt 2 ⊛ rf ⊛
    z 11 ⊛ z 90 ⊛ z 1212 ⊛ q8p ⊝ qt 2 ⊛ rf ⊛ z 11 ⊛ z 94 ⊛ z 1207 ⊛ q8p ⊝ qt 2 ⊛ rf ⊛ z 12 ⊛ z 94
    ⊛ z 1212 ⊛ q8p ⊝ z 11 ⊛ z 40 ⊛ z 43 ⊛ z 2675 ⊝ z 12 ⊛ z 39 ⊛ z 43 ⊛ z 2675 ⊝ z 12 ⊛ z 40 ⊛ z
    43 ⊛ z 2682 ⊝ qt 1 ⊛ rf ⊛ z 11 ⊛ z 90 ⊛ z 2783 ⊝ qt 1 ⊛ rf ⊛ z 12 ⊛ z 90 ⊛ z 2778 ⊝ qt 1 ⊛ rf
    ⊛ z 12 ⊛ z 94 ⊛ z 2783 ⊝ qt 2 ⊛ rf ⊛ z 11 ⊛ z 43 ⊛ z 1207 ⊛ z 324 ⊝ qt 2 ⊛ rf ⊛ z 11 ⊛ z 43 ⊛
    z 1213 ⊛ z 584 ⊝ qt 2 ⊛ rf ⊛ z 11 ⊛ z 43 ⊛ z 1214 ⊛ z 582 ⊝ qt 2 ⊛ rf ⊛ z 12 ⊛ z 43 ⊛ z 1207 ⊛
    z 329 ⊝ qt 2 ⊛ rf ⊛ z 12 ⊛ z 43 ⊛ z 1212 ⊛ z 324 ⊝ qt 2 ⊛ rf ⊛ z 12 ⊛ z 43 ⊛ z 1214 ⊛ z 584),
(2788, z 5 ⊛ z 262 ⊛ z 1582 ⊹ z 5 ⊛ (z 1216 ⊝ z 1217) ⊛ q5p ⊹ z 5 ⊛ z 607 ⊹ z 6 ⊛ z 2780 ⊹ z 257 ⊛
    z 2645 ⊹ (z 1203 ⊹ z 1208) ⊛ z 305 ⊹ z 23 ⊛ (z 2782 ⊹ z 2784) ⊹ z 6 ⊛ z 10 ⊛ (z 614 ⊹ z 615) ⊝
    z 6 ⊛ z 262 ⊛ q5p ⊝ z 259 ⊛ z 2639 ⊝ (z 1211 ⊹ z 1215) ⊛ z 296 ⊝ z 25 ⊛ (z 2786 ⊹ z 2787) ⊝ z
    6 ⊛ z 9 ⊛ (z 611 ⊹ z 612)),
(2789, z 9 ⊛ z 1267 ⊛ q7p ⊹ d2 ⊛ z 2663 ⊹ d1 ⊛ z 10 ⊛ z 2610),
(2790, z 40 ⊛ z 2663 ⊹ qt 1 ⊛ rf ⊛ z 77 ⊛ z 2783 ⊹ qt 2 ⊛ rf ⊛ z 1207 ⊛ z 312 ⊹ qt 2 ⊛ rf ⊛ z 1264
    ⊛ z 582),
(2791, neg d1 ⊛ z 2618 ⊝ d3 ⊛ z 2663),
(2792, z 39 ⊛ z 2663 ⊹ qt 1 ⊛ rf ⊛ z 77 ⊛ z 2778 ⊹ qt 2 ⊛ rf ⊛ z 1212 ⊛ z 312 ⊹ qt 2 ⊛ rf ⊛ z 1264
    ⊛ z 584),
(2793, d3 ⊛ z 2652 ⊝ d2 ⊛ z 2638),
(2794, z 2793 ⊹ d1 ⊛ z 9 ⊛ z 2610 ⊝ z 10 ⊛ z 1267 ⊛ q7p),
(2795, z 12 ⊛ z 40 ⊛ z 92 ⊛ z 1643 ⊹ z 12 ⊛ z 40 ⊛ z 1274 ⊛ q8p ⊹ qt 2 ⊛ rf ⊛ z 12 ⊛ z 92 ⊛ z 1207
    ⊛ q8p ⊹ z 11 ⊛ z 39 ⊛ z 2679 ⊹ qt 1 ⊛ rf ⊛ z 11 ⊛ z 97 ⊛ z 2778 ⊹ qt 2 ⊛ rf ⊛ z 11 ⊛ z 1212 ⊛
    z 332 ⊹ qt 2 ⊛ rf ⊛ z 11 ⊛ z 1273 ⊛ z 584 ⊝ z 11 ⊛ z 39 ⊛ z 92 ⊛ z 1643 ⊝ z 11 ⊛ z 40 ⊛ z 97 ⊛
    z 1643 ⊝ z 12 ⊛ z 39 ⊛ z 97 ⊛ z 1643 ⊝ z 11 ⊛ z 39 ⊛ z 1274 ⊛ q8p ⊝ z 11 ⊛ z 40 ⊛ z 1273 ⊛ q8p
    ⊝ z 12 ⊛ z 39 ⊛ z 1273 ⊛ q8p ⊝ qt 2 ⊛ rf ⊛ z 11 ⊛ z 92 ⊛ z 1212 ⊛ q8p ⊝ qt 2 ⊛ rf ⊛ z 11 ⊛ z
    97 ⊛ z 1207 ⊛ q8p ⊝ qt 2 ⊛ rf ⊛ z 12 ⊛ z 97 ⊛ z 1212 ⊛ q8p ⊝ z 11 ⊛ z 40 ⊛ z 2672 ⊝ z 12 ⊛ z
    39 ⊛ z 2672 ⊝ z 12 ⊛ z 40 ⊛ z 2679 ⊝ qt 2 ⊛ rf ⊛ z 11 ⊛ z 1207 ⊛ z 326 ⊝ qt 2 ⊛ rf ⊛ z 11 ⊛ z
    1274 ⊛ z 582 ⊝ qt 2 ⊛ rf ⊛ z 12 ⊛ z 1207 ⊛ z 332 ⊝ qt 2 ⊛ rf ⊛ z 12 ⊛ z 1212 ⊛ z 326 ⊝ qt 2 ⊛
    rf ⊛ z 12 ⊛ z 1273 ⊛ z 582 ⊝ qt 2 ⊛ rf ⊛ z 12 ⊛ z 1274 ⊛ z 584 ⊝ qt 1 ⊛ rf ⊛ z 11 ⊛ z 92 ⊛ z
    2783 ⊝ qt 1 ⊛ rf ⊛ z 12 ⊛ z 92 ⊛ z 2778 ⊝ qt 1 ⊛ rf ⊛ z 12 ⊛ z 97 ⊛ z 2783),
(2796, z 5 ⊛ z 263 ⊛ z 1582 ⊹ z 5 ⊛ (z 1265 ⊝ z 1266) ⊛ q5p ⊹ z 256 ⊛ z 2645 ⊹ (z 1268 ⊹ z 1269) ⊛
    z 305 ⊹ z 23 ⊛ (z 2789 ⊹ z 2790) ⊹ z 5 ⊛ (z 595 ⊝ z 596) ⊹ z 6 ⊛ (z 2791 ⊝ z 2792) ⊹ z 6 ⊛ z
    10 ⊛ (z 600 ⊹ z 601) ⊝ z 6 ⊛ z 263 ⊛ q5p ⊝ z 261 ⊛ z 2639 ⊝ z 1276 ⊛ z 296 ⊝ z 25 ⊛ (z 2794 ⊹
    z 2795) ⊝ z 6 ⊛ z 9 ⊛ (z 597 ⊹ z 598)),
(2797, d2 ⊛ z 2664 ⊹ d1 ⊛ z 10 ⊛ z 2611),
(2798, z 40 ⊛ z 2664 ⊹ qt 1 ⊛ rf ⊛ z 76 ⊛ z 2783 ⊹ qt 2 ⊛ rf ⊛ z 1207 ⊛ z 311 ⊹ qt 2 ⊛ rf ⊛ z 1286
    ⊛ z 582),
(2799, neg d1 ⊛ z 2619 ⊝ d3 ⊛ z 2664),
(2800, z 39 ⊛ z 2664 ⊹ qt 1 ⊛ rf ⊛ z 76 ⊛ z 2778 ⊹ qt 2 ⊛ rf ⊛ z 1212 ⊛ z 311 ⊹ qt 2 ⊛ rf ⊛ z 1286
    ⊛ z 584),
(2801, d3 ⊛ z 2655 ⊝ d2 ⊛ z 2642),
(2802, z 2801 ⊹ d1 ⊛ z 9 ⊛ z 2611),
(2803, z 12 ⊛ z 40 ⊛ z 91 ⊛ z 1643 ⊹ z 12 ⊛ z 40 ⊛ z 1294 ⊛ q8p ⊹ qt 2 ⊛ rf ⊛ z 12 ⊛ z 91 ⊛ z 1207
    ⊛ q8p ⊹ z 11 ⊛ z 39 ⊛ z 2680 ⊹ qt 1 ⊛ rf ⊛ z 11 ⊛ z 95 ⊛ z 2778 ⊹ qt 2 ⊛ rf ⊛ z 11 ⊛ z 1212 ⊛
    z 330 ⊹ qt 2 ⊛ rf ⊛ z 11 ⊛ z 1293 ⊛ z 584 ⊝ z 11 ⊛ z 39 ⊛ z 91 ⊛ z 1643 ⊝ z 11 ⊛ z 40 ⊛ z 95 ⊛
    z 1643 ⊝ z 12 ⊛ z 39 ⊛ z 95 ⊛ z 1643 ⊝ z 11 ⊛ z 39 ⊛ z 1294 ⊛ q8p ⊝ z 11 ⊛ z 40 ⊛ z 1293 ⊛ q8p
    ⊝ z 12 ⊛ z 39 ⊛ z 1293 ⊛ q8p ⊝ qt 2 ⊛ rf ⊛ z 11 ⊛ z 91 ⊛ z 1212 ⊛ q8p ⊝ qt 2 ⊛ rf ⊛ z 11 ⊛ z
    95 ⊛ z 1207 ⊛ q8p ⊝ qt 2 ⊛ rf ⊛ z 12 ⊛ z 95 ⊛ z 1212 ⊛ q8p ⊝ z 11 ⊛ z 40 ⊛ z 2673 ⊝ z 12 ⊛ z
    39 ⊛ z 2673 ⊝ z 12 ⊛ z 40 ⊛ z 2680 ⊝ qt 2 ⊛ rf ⊛ z 11 ⊛ z 1207 ⊛ z 325 ⊝ qt 2 ⊛ rf ⊛ z 11 ⊛ z
    1294 ⊛ z 582 ⊝ qt 2 ⊛ rf ⊛ z 12 ⊛ z 1207 ⊛ z 330 ⊝ qt 2 ⊛ rf ⊛ z 12 ⊛ z 1212 ⊛ z 325 ⊝ qt 2 ⊛
    rf ⊛ z 12 ⊛ z 1293 ⊛ z 582 ⊝ qt 2 ⊛ rf ⊛ z 12 ⊛ z 1294 ⊛ z 584 ⊝ qt 1 ⊛ rf ⊛ z 11 ⊛ z 91 ⊛ z
    2783 ⊝ qt 1 ⊛ rf ⊛ z 12 ⊛ z 91 ⊛ z 2778 ⊝ qt 1 ⊛ rf ⊛ z 12 ⊛ z 95 ⊛ z 2783)]

/-- _mooreriderlean2012.py:5661-5746 -/
def part47 : List (ℕ × E) := [
(2804, z 5 ⊛ z 264 ⊛ z 1582 ⊹ z 5 ⊛ (z 1287 ⊝ z 1288) ⊛ q5p ⊹ z 255 ⊛ z 2645 ⊹ z 23 ⊛ (z 2797 ⊹ z
    2798) ⊹ (z 1289 ⊹ d2 ⊛ z 1286) ⊛ z 305 ⊹ z 5 ⊛ (z 587 ⊝ z 588) ⊹ z 6 ⊛ (z 2799 ⊝ z 2800) ⊹ z 6
    ⊛ z 10 ⊛ (z 592 ⊹ z 593) ⊝ z 6 ⊛ z 264 ⊛ q5p ⊝ z 260 ⊛ z 2639 ⊝ (z 1292 ⊹ z 1295) ⊛ z 296 ⊝ z
    25 ⊛ (z 2802 ⊹ z 2803) ⊝ z 6 ⊛ z 9 ⊛ (z 589 ⊹ z 590)),
(2805, z 6 ⊛ z 250 ⊛ q5p ⊹ z 254 ⊛ z 2645 ⊹ qt 1 ⊛ rf ⊛ z 23 ⊛ z 83 ⊛ z 2783 ⊹ qt 2 ⊛ rf ⊛ z 83 ⊛
    z 1207 ⊛ z 305 ⊝ z 5 ⊛ z 250 ⊛ z 1582 ⊝ qt 2 ⊛ rf ⊛ z 5 ⊛ z 83 ⊛ z 1212 ⊛ q5p ⊝ qt 2 ⊛ z 5 ⊛ z
    585 ⊝ qt 2 ⊛ z 6 ⊛ z 9 ⊛ z 583 ⊝ qt 1 ⊛ rf ⊛ z 6 ⊛ z 83 ⊛ z 2778),
(2806, d3 ⊛ z 2656 ⊝ d2 ⊛ z 2647),
(2807, z 12 ⊛ z 40 ⊛ z 93 ⊛ z 1643 ⊹ z 12 ⊛ z 40 ⊛ z 1320 ⊛ q8p ⊹ qt 2 ⊛ rf ⊛ z 12 ⊛ z 93 ⊛ z 1207
    ⊛ q8p ⊹ z 11 ⊛ z 39 ⊛ z 2681 ⊹ qt 1 ⊛ rf ⊛ z 11 ⊛ z 96 ⊛ z 2778 ⊹ qt 2 ⊛ rf ⊛ z 11 ⊛ z 1212 ⊛
    z 331 ⊹ qt 2 ⊛ rf ⊛ z 11 ⊛ z 1319 ⊛ z 584 ⊝ z 11 ⊛ z 39 ⊛ z 93 ⊛ z 1643 ⊝ z 11 ⊛ z 40 ⊛ z 96 ⊛
    z 1643 ⊝ z 12 ⊛ z 39 ⊛ z 96 ⊛ z 1643 ⊝ z 11 ⊛ z 39 ⊛ z 1320 ⊛ q8p ⊝ z 11 ⊛ z 40 ⊛ z 1319 ⊛ q8p
    ⊝ z 12 ⊛ z 39 ⊛ z 1319 ⊛ q8p ⊝ qt 2 ⊛ rf ⊛ z 11 ⊛ z 93 ⊛ z 1212 ⊛ q8p ⊝ qt 2 ⊛ rf ⊛ z 11 ⊛ z
    96 ⊛ z 1207 ⊛ q8p ⊝ qt 2 ⊛ rf ⊛ z 12 ⊛ z 96 ⊛ z 1212 ⊛ q8p ⊝ z 11 ⊛ z 40 ⊛ z 2674 ⊝ z 12 ⊛ z
    39 ⊛ z 2674 ⊝ z 12 ⊛ z 40 ⊛ z 2681 ⊝ qt 2 ⊛ rf ⊛ z 11 ⊛ z 1207 ⊛ z 327 ⊝ qt 2 ⊛ rf ⊛ z 11 ⊛ z
    1320 ⊛ z 582 ⊝ qt 2 ⊛ rf ⊛ z 12 ⊛ z 1207 ⊛ z 331 ⊝ qt 2 ⊛ rf ⊛ z 12 ⊛ z 1212 ⊛ z 327 ⊝ qt 2 ⊛
    rf ⊛ z 12 ⊛ z 1319 ⊛ z 582 ⊝ qt 2 ⊛ rf ⊛ z 12 ⊛ z 1320 ⊛ z 584 ⊝ qt 1 ⊛ rf ⊛ z 11 ⊛ z 93 ⊛ z
    2783 ⊝ qt 1 ⊛ rf ⊛ z 12 ⊛ z 93 ⊛ z 2778 ⊝ qt 1 ⊛ rf ⊛ z 12 ⊛ z 96 ⊛ z 2783),
(2808, z 258 ⊛ z 2639 ⊹ (z 1318 ⊹ z 1321) ⊛ z 296 ⊹ z 25 ⊛ (z 2806 ⊹ z 2807) ⊝ z 6 ⊛ z 10 ⊛ (z 617
    ⊹ z 618)),
(2809, u1 ⊛ z 2768 ⊹ u2 ⊛ z 2773 ⊹ u3 ⊛ z 2788 ⊹ u4 ⊛ z 2796 ⊹ u5 ⊛ z 2804 ⊹ u8 ⊛ z 2805 ⊹ z 1325
    ⊛ z 573 ⊹ z 1502 ⊛ z 578 ⊹ z 1552 ⊛ z 616 ⊹ z 1582 ⊛ z 594 ⊹ z 1643 ⊛ z 586 ⊝ u7 ⊛ z 2808),
(2810, z 1 ⊛ u2 ⊛ z 1552 ⊹ z 1 ⊛ z 1502 ⊛ q3p ⊹ z 1552 ⊛ z 552 ⊹ rr ⊛ u4 ⊛ z 2618 ⊹ rr ⊛ u5 ⊛ z
    2619 ⊹ rr ⊛ z 1582 ⊛ z 275 ⊝ z 2 ⊛ u1 ⊛ z 1552 ⊝ z 2 ⊛ z 1325 ⊛ q3p),
(2811, z 25 ⊛ z 2775 ⊹ z 33 ⊛ z 2639 ⊹ z 1205 ⊛ z 296 ⊝ z 6 ⊛ z 10 ⊛ z 580),
(2812, (qt 6 ⊛ z 416 ⊛ z 1206 ⊛ z 581 ⊹ z 35 ⊛ (n 2 ⊛ z 35 ⊛ z 2811 ⊝ z 416 ⊛ z 2777 ⊝ z 1206 ⊛ z
    630 ⊝ z 1230 ⊛ z 581)) ⊘ hpow (z 35) 5),
(2813, (n 2 ⊛ z 1206 ⊛ (z 36 ⊛ (z 33 ⊛ z 631 ⊹ n 2 ⊛ z 420 ⊛ z 580) ⊹ (z 25 ⊛ z 36 ⊝ n 3 ⊛ z 33 ⊛
    z 420) ⊛ z 581 ⊘ hpow (z 35) 1) ⊘ hpow (z 35) 1 ⊹ z 36 ⊛ (n 2 ⊛ z 36 ⊛ (n 2 ⊛ z 36 ⊛ z 2639 ⊝
    n 2 ⊛ z 420 ⊛ z 2775 ⊝ z 33 ⊛ z 2812 ⊝ z 1205 ⊛ z 631 ⊝ z 1231 ⊛ z 580 ⊝ z 1206 ⊛ z 296 ⊘ hpow
    (z 35) 1) ⊝ (n 2 ⊛ z 35 ⊛ (z 25 ⊛ z 36 ⊝ n 2 ⊛ z 33 ⊛ z 420) ⊛ z 2777 ⊝ z 1206 ⊛ (z 25 ⊛ z 36
    ⊝ n 2 ⊛ z 33 ⊛ z 420) ⊛ z 581 ⊝ n 2 ⊛ z 35 ⊛ (z 33 ⊛ z 1231 ⊹ n 2 ⊛ z 420 ⊛ z 1205 ⊹ z 6 ⊛ z
    10 ⊛ z 36) ⊛ z 581) ⊘ hpow (z 35) 3)) ⊘ pow (z 36) 4),
(2814, (n 3 ⊛ z 34 ⊛ z 420 ⊛ z 1206 ⊛ z 581 ⊘ z 35 ⊹ z 36 ⊛ (z 34 ⊛ z 36 ⊛ z 2812 ⊹ z 36 ⊛ z 1204
    ⊛ z 631 ⊹ z 36 ⊛ z 1231 ⊛ z 579 ⊹ n 2 ⊛ z 36 ⊛ z 420 ⊛ z 2776 ⊹ (z 34 ⊛ z 420 ⊛ z 1206 ⊛ z 581
    ⊝ n 2 ⊛ z 34 ⊛ z 35 ⊛ z 420 ⊛ z 2777 ⊝ n 2 ⊛ z 35 ⊛ z 420 ⊛ z 1204 ⊛ z 581 ⊝ n 2 ⊛ z 35 ⊛ z
    420 ⊛ z 1206 ⊛ z 579 ⊝ z 34 ⊛ z 35 ⊛ z 1206 ⊛ z 631 ⊝ z 34 ⊛ z 35 ⊛ z 1231 ⊛ z 581) ⊘ hpow (z
    35) 3)) ⊘ pow (z 36) 4),
(2815, z 443 ⊛ z 2648 ⊹ qt 1 ⊛ rf ⊛ z 28 ⊛ z 2813 ⊹ qt 2 ⊛ rf ⊛ z 1232 ⊛ z 308 ⊹ qt 2 ⊛ rf ⊛ z 3 ⊛
    z 6 ⊛ z 633 ⊹ qt 2 ⊛ rf ⊛ z 3 ⊛ z 5 ⊛ z 9 ⊛ z 632 ⊝ z 434 ⊛ z 2604 ⊝ qt 2 ⊛ rf ⊛ z 32 ⊛ z 2814
    ⊝ qt 2 ⊛ rf ⊛ z 1233 ⊛ z 268),
(2816, z 25 ⊛ z 2776 ⊹ z 34 ⊛ z 2639 ⊹ z 1204 ⊛ z 296 ⊝ z 6 ⊛ z 10 ⊛ z 579),
(2817, (qt 6 ⊛ z 412 ⊛ z 1206 ⊛ z 581 ⊹ z 35 ⊛ (n 2 ⊛ z 35 ⊛ z 2816 ⊝ z 412 ⊛ z 2777 ⊝ z 1206 ⊛ z
    635 ⊝ z 1225 ⊛ z 581)) ⊘ hpow (z 35) 5),
(2818, (n 3 ⊛ z 33 ⊛ z 418 ⊛ z 1206 ⊛ z 581 ⊘ z 35 ⊹ z 36 ⊛ (z 33 ⊛ z 36 ⊛ z 2817 ⊹ z 36 ⊛ z 1205
    ⊛ z 636 ⊹ z 36 ⊛ z 1226 ⊛ z 580 ⊹ n 2 ⊛ z 36 ⊛ z 418 ⊛ z 2775 ⊹ (z 33 ⊛ z 418 ⊛ z 1206 ⊛ z 581
    ⊝ n 2 ⊛ z 33 ⊛ z 35 ⊛ z 418 ⊛ z 2777 ⊝ n 2 ⊛ z 35 ⊛ z 418 ⊛ z 1205 ⊛ z 581 ⊝ n 2 ⊛ z 35 ⊛ z
    418 ⊛ z 1206 ⊛ z 580 ⊝ z 33 ⊛ z 35 ⊛ z 1206 ⊛ z 636 ⊝ z 33 ⊛ z 35 ⊛ z 1226 ⊛ z 581) ⊘ hpow (z
    35) 3)) ⊘ pow (z 36) 4),
(2819, (n 2 ⊛ z 1206 ⊛ (z 36 ⊛ (z 34 ⊛ z 636 ⊹ n 2 ⊛ z 418 ⊛ z 579) ⊹ (z 25 ⊛ z 36 ⊝ n 3 ⊛ z 34 ⊛
    z 418) ⊛ z 581 ⊘ hpow (z 35) 1) ⊘ hpow (z 35) 1 ⊹ z 36 ⊛ (n 2 ⊛ z 36 ⊛ (n 2 ⊛ z 36 ⊛ z 2639 ⊝
    n 2 ⊛ z 418 ⊛ z 2776 ⊝ z 34 ⊛ z 2817 ⊝ z 1204 ⊛ z 636 ⊝ z 1226 ⊛ z 579 ⊝ z 1206 ⊛ z 296 ⊘ hpow
    (z 35) 1) ⊝ (n 2 ⊛ z 35 ⊛ (z 25 ⊛ z 36 ⊝ n 2 ⊛ z 34 ⊛ z 418) ⊛ z 2777 ⊝ z 1206 ⊛ (z 25 ⊛ z 36
    ⊝ n 2 ⊛ z 34 ⊛ z 418) ⊛ z 581 ⊝ n 2 ⊛ z 35 ⊛ (z 34 ⊛ z 1226 ⊹ n 2 ⊛ z 418 ⊛ z 1204 ⊹ z 6 ⊛ z
    10 ⊛ z 36) ⊛ z 581) ⊘ hpow (z 35) 3)) ⊘ pow (z 36) 4),
(2820, z 432 ⊛ z 2604 ⊹ qt 1 ⊛ rf ⊛ z 32 ⊛ z 2819 ⊹ qt 2 ⊛ rf ⊛ z 1227 ⊛ z 268 ⊹ qt 2 ⊛ rf ⊛ z 3 ⊛
    z 6 ⊛ z 637 ⊹ qt 2 ⊛ rf ⊛ z 3 ⊛ z 5 ⊛ z 9 ⊛ z 638 ⊝ z 444 ⊛ z 2648 ⊝ qt 2 ⊛ rf ⊛ z 28 ⊛ z 2818
    ⊝ qt 2 ⊛ rf ⊛ z 1228 ⊛ z 308),
(2821, n 2 ⊛ z 6 ⊛ z 33 ⊛ q5p ⊹ n 2 ⊛ z 23 ⊛ z 2776 ⊹ n 2 ⊛ z 34 ⊛ z 2645 ⊹ n 2 ⊛ z 1204 ⊛ z 305 ⊝
    n 2 ⊛ z 5 ⊛ z 33 ⊛ z 1582 ⊝ n 2 ⊛ z 5 ⊛ z 1205 ⊛ q5p ⊝ n 2 ⊛ z 5 ⊛ z 580 ⊝ n 2 ⊛ z 6 ⊛ z 2775
    ⊝ n 2 ⊛ z 6 ⊛ z 9 ⊛ z 579),
(2822, (qt 6 ⊛ z 411 ⊛ z 1206 ⊛ z 581 ⊹ z 35 ⊛ (n 2 ⊛ z 35 ⊛ z 2821 ⊝ z 411 ⊛ z 2777 ⊝ z 1206 ⊛ z
    640 ⊝ z 1245 ⊛ z 581)) ⊘ hpow (z 35) 5),
(2823, (n 2 ⊛ z 1206 ⊛ (qt 6 ⊛ z 33 ⊛ z 421 ⊛ z 581 ⊘ hpow (z 35) 1 ⊝ z 36 ⊛ (z 5 ⊛ z 36 ⊛ q5p ⊝ z
    6 ⊛ z 581 ⊘ hpow (z 35) 1)) ⊘ hpow (z 35) 1 ⊹ z 36 ⊛ ((z 33 ⊛ z 421 ⊛ z 1206 ⊛ z 581 ⊝ n 2 ⊛ z
    33 ⊛ z 35 ⊛ z 421 ⊛ z 2777 ⊝ n 2 ⊛ z 35 ⊛ z 421 ⊛ z 1205 ⊛ z 581 ⊝ z 33 ⊛ z 35 ⊛ z 1246 ⊛ z
    581 ⊝ z 35 ⊛ z 1206 ⊛ (z 33 ⊛ z 641 ⊹ n 2 ⊛ z 421 ⊛ z 580)) ⊘ hpow (z 35) 3 ⊹ z 36 ⊛ (n 4 ⊛ z
    5 ⊛ z 36 ⊛ z 1582 ⊹ z 33 ⊛ z 2822 ⊹ z 1205 ⊛ z 641 ⊹ z 1246 ⊛ z 580 ⊹ n 2 ⊛ z 421 ⊛ z 2775 ⊝ n
    4 ⊛ z 6 ⊛ z 36 ⊛ q5p ⊝ (n 2 ⊛ z 5 ⊛ z 35 ⊛ z 581 ⊹ n 2 ⊛ z 6 ⊛ z 35 ⊛ z 2777 ⊝ z 6 ⊛ z 1206 ⊛
    z 581) ⊘ hpow (z 35) 3))) ⊘ pow (z 36) 4),
(2824, (z 1206 ⊛ (z 36 ⊛ (z 34 ⊛ z 641 ⊹ n 2 ⊛ z 421 ⊛ z 579) ⊹ n 2 ⊛ (z 23 ⊛ z 36 ⊝ qt 6 ⊛ z 34 ⊛
    z 421) ⊛ z 581 ⊘ hpow (z 35) 1) ⊘ hpow (z 35) 1 ⊹ z 36 ⊛ (z 36 ⊛ (n 4 ⊛ z 36 ⊛ z 2645 ⊝ n 2 ⊛
    z 421 ⊛ z 2776 ⊝ z 34 ⊛ z 2822 ⊝ z 1204 ⊛ z 641 ⊝ z 1246 ⊛ z 579 ⊝ n 2 ⊛ z 1206 ⊛ z 305 ⊘ hpow
    (z 35) 1) ⊝ (n 2 ⊛ z 35 ⊛ (z 23 ⊛ z 36 ⊝ z 34 ⊛ z 421) ⊛ z 2777 ⊝ z 1206 ⊛ (z 23 ⊛ z 36 ⊝ z 34
    ⊛ z 421) ⊛ z 581 ⊝ z 35 ⊛ (z 34 ⊛ z 1246 ⊹ n 2 ⊛ z 421 ⊛ z 1204 ⊹ n 2 ⊛ z 6 ⊛ z 9 ⊛ z 36) ⊛ z
    581) ⊘ hpow (z 35) 3)) ⊘ pow (z 36) 4),
(2825, qt 2 ⊛ z 430 ⊛ z 2604 ⊹ qt 1 ⊛ rf ⊛ z 32 ⊛ z 2824 ⊹ qt 1 ⊛ rf ⊛ z 1247 ⊛ z 268 ⊹ qt 1 ⊛ rf
    ⊛ z 1248 ⊛ z 308 ⊹ qt 1 ⊛ rf ⊛ z 3 ⊛ z 6 ⊛ z 642 ⊝ qt 2 ⊛ z 446 ⊛ z 2648 ⊝ qt 1 ⊛ rf ⊛ z 28 ⊛
    z 2823 ⊝ qt 1 ⊛ rf ⊛ z 3 ⊛ z 5 ⊛ z 9 ⊛ z 643)]

end BP.EL
