import Verif.Model.EvalLinear

/-!
# The body of `eval_linear`, part 3

Generated by tools/gen_eval_linear.py from _mooreriderlean2012.py:3315-4495.  Do not edit.
-/

namespace BP.EL

open E

/-- _mooreriderlean2012.py:3315-3411 -/
def part24 : List (ℕ × E) := [
(2068, z 4 ⊛ z 43 ⊛ (z 21 ⊛ z 5 ⊝ z 22 ⊛ z 6)),
(2069, z 21 ⊛ z 3 ⊛ z 43 ⊝ z 1080),
(2070, z 22 ⊛ z 3 ⊛ z 43 ⊝ z 1067),
(2071, z 17 ⊛ z 2068 ⊹ z 19 ⊛ z 2069 ⊝ z 16 ⊛ z 2070),
(2072, z 43 ⊛ (l5 ⊛ z 2066 ⊝ l6 ⊛ z 2065)),
(2073, z 20 ⊛ z 2069 ⊝ z 15 ⊛ z 2068 ⊝ z 18 ⊛ z 2070),
(2074, z 2073 ⊝ l5 ⊛ z 43 ⊛ z 2067),
(2075, z 13 ⊛ z 2070 ⊹ z 14 ⊛ z 2069),
(2076, z 2075 ⊹ l6 ⊛ z 43 ⊛ z 2067),
(2077, ig11 ⊛ z 43 ⊛ z 98 ⊛ z 2065 ⊹ ig22 ⊛ z 43 ⊛ z 99 ⊛ z 2067 ⊹ ig31 ⊛ z 43 ⊛ z 98 ⊛ z 2066 ⊹
    mg ⊛ (z 205 ⊛ z 2076 ⊝ z 201 ⊛ z 2074 ⊝ z 200 ⊛ (z 2071 ⊹ z 2072))),
(2078, z 548 ⊛ z 2060 ⊹ z 902 ⊛ z 1542 ⊹ z 906 ⊛ z 1196 ⊝ z 540 ⊛ z 2064 ⊝ z 543 ⊛ z 2050 ⊝ z 546
    ⊛ z 2077 ⊝ z 903 ⊛ z 1577 ⊝ z 907 ⊛ z 1487),
(2079, neg (z 921) ⊛ z 1541 ⊝ z 3 ⊛ z 43 ⊛ z 545 ⊛ z 791),
(2080, neg (n 2) ⊛ mg ⊛ (z 188 ⊛ z 2048 ⊝ z 183 ⊛ z 2047 ⊝ z 193 ⊛ z 2049) ⊝ n 2 ⊛ mc ⊛ z 1 ⊛ (z 4
    ⊛ z 124 ⊹ z 3 ⊛ z 5 ⊛ z 125 ⊝ z 3 ⊛ z 6 ⊛ z 123) ⊝ n 2 ⊛ me ⊛ z 1 ⊛ (z 4 ⊛ z 124 ⊹ z 3 ⊛ z 5 ⊛
    z 125 ⊝ z 3 ⊛ z 6 ⊛ z 123) ⊝ n 2 ⊛ mf ⊛ z 1 ⊛ (z 4 ⊛ z 124 ⊹ z 3 ⊛ z 5 ⊛ z 125 ⊝ z 3 ⊛ z 6 ⊛ z
    123)),
(2081, mg ⊛ (z 182 ⊛ z 2047 ⊹ z 188 ⊛ z 2062 ⊹ z 192 ⊛ z 2049 ⊝ z 183 ⊛ z 2061 ⊝ z 187 ⊛ z 2048 ⊝
    z 193 ⊛ z 2063) ⊹ mc ⊛ (z 1 ⊛ z 4 ⊛ z 121 ⊹ z 2 ⊛ z 4 ⊛ z 124 ⊹ z 1 ⊛ z 3 ⊛ z 6 ⊛ z 120 ⊹ z 2
    ⊛ z 3 ⊛ z 5 ⊛ z 125 ⊝ z 1 ⊛ z 3 ⊛ z 5 ⊛ z 122 ⊝ z 2 ⊛ z 3 ⊛ z 6 ⊛ z 123) ⊹ me ⊛ (z 1 ⊛ z 4 ⊛ z
    121 ⊹ z 2 ⊛ z 4 ⊛ z 124 ⊹ z 1 ⊛ z 3 ⊛ z 6 ⊛ z 120 ⊹ z 2 ⊛ z 3 ⊛ z 5 ⊛ z 125 ⊝ z 1 ⊛ z 3 ⊛ z 5
    ⊛ z 122 ⊝ z 2 ⊛ z 3 ⊛ z 6 ⊛ z 123) ⊹ mf ⊛ (z 1 ⊛ z 4 ⊛ z 121 ⊹ z 2 ⊛ z 4 ⊛ z 124 ⊹ z 1 ⊛ z 3 ⊛
    z 6 ⊛ z 120 ⊹ z 2 ⊛ z 3 ⊛ z 5 ⊛ z 125 ⊝ z 1 ⊛ z 3 ⊛ z 5 ⊛ z 122 ⊝ z 2 ⊛ z 3 ⊛ z 6 ⊛ z 123)),
(2082, l2 ⊛ z 3 ⊛ z 43 ⊝ z 1067),
(2083, z 4 ⊛ z 43 ⊛ (l1 ⊛ z 5 ⊹ l2 ⊛ z 6)),
(2084, neg (z 1080) ⊝ l1 ⊛ z 3 ⊛ z 43),
(2085, z 43 ⊛ (d2 ⊛ z 27 ⊹ l4 ⊛ z 27 ⊹ z 158 ⊛ z 4 ⊛ z 5)),
(2087, me ⊛ (z 125 ⊛ z 1081 ⊹ z 10 ⊛ z 123 ⊛ z 2085 ⊹ z 1 ⊛ z 3 ⊛ z 5 ⊛ z 169 ⊹ z 163 ⊛ z 9 ⊛ z 29
    ⊛ z 43 ⊛ z 123 ⊹ z 163 ⊛ z 10 ⊛ z 29 ⊛ z 43 ⊛ z 124 ⊹ z 1 ⊛ z 3 ⊛ z 6 ⊛ z 9 ⊛ z 166 ⊝ z 123 ⊛
    z 1067 ⊝ z 124 ⊛ z 1066 ⊝ z 1 ⊛ z 4 ⊛ z 145 ⊝ z 9 ⊛ z 124 ⊛ z 2085 ⊝ z 158 ⊛ z 29 ⊛ z 43 ⊛ z
    125 ⊝ z 1 ⊛ z 3 ⊛ z 5 ⊛ z 146 ⊝ z 1 ⊛ z 3 ⊛ z 6 ⊛ z 126 ⊝ z 1 ⊛ z 4 ⊛ z 9 ⊛ z 159 ⊝ z 1 ⊛ z 4
    ⊛ z 10 ⊛ z 166 ⊝ z 1 ⊛ z 3 ⊛ z 6 ⊛ z 10 ⊛ z 159) ⊹ mf ⊛ (z 125 ⊛ z 1081 ⊹ z 10 ⊛ z 123 ⊛ z
    1074 ⊹ z 1 ⊛ z 3 ⊛ z 5 ⊛ z 157 ⊹ d2 ⊛ z 9 ⊛ z 29 ⊛ z 43 ⊛ z 123 ⊹ d2 ⊛ z 10 ⊛ z 29 ⊛ z 43 ⊛ z
    124 ⊹ z 1 ⊛ z 3 ⊛ z 6 ⊛ z 9 ⊛ z 154 ⊝ z 123 ⊛ z 1067 ⊝ z 124 ⊛ z 1066 ⊝ z 1 ⊛ z 4 ⊛ z 145 ⊝ z
    9 ⊛ z 124 ⊛ z 1074 ⊝ d3 ⊛ z 29 ⊛ z 43 ⊛ z 125 ⊝ z 1 ⊛ z 3 ⊛ z 5 ⊛ z 146 ⊝ z 1 ⊛ z 3 ⊛ z 6 ⊛ z
    126 ⊝ z 1 ⊛ z 4 ⊛ z 9 ⊛ z 148 ⊝ z 1 ⊛ z 4 ⊛ z 10 ⊛ z 154 ⊝ z 1 ⊛ z 3 ⊛ z 6 ⊛ z 10 ⊛ z 148) ⊝ z
    2086 ⊛ z 2 ⊛ z 3 ⊛ z 43 ⊝ mg ⊛ (z 214 ⊛ z 2048 ⊝ z 183 ⊛ z 2076 ⊝ z 193 ⊛ z 2074 ⊝ z 211 ⊛ z
    2047 ⊝ z 217 ⊛ z 2049 ⊝ z 188 ⊛ (z 2071 ⊹ z 2072)) ⊝ mc ⊛ (z 124 ⊛ z 2083 ⊹ z 1 ⊛ z 4 ⊛ z 130
    ⊹ z 1 ⊛ z 3 ⊛ z 5 ⊛ z 138 ⊝ z 123 ⊛ z 2082 ⊝ z 125 ⊛ z 2084 ⊝ z 1 ⊛ z 3 ⊛ z 6 ⊛ z 137)),
(2088, z 542 ⊛ z 2080 ⊹ z 914 ⊛ z 1484 ⊝ z 539 ⊛ z 2081 ⊝ z 545 ⊛ z 2087 ⊝ z 910 ⊛ z 1188 ⊝ z 916
    ⊛ z 1541),
(2089, n 2 ⊛ mg ⊛ (z 187 ⊛ z 2062 ⊝ z 182 ⊛ z 2061 ⊝ z 192 ⊛ z 2063) ⊹ n 2 ⊛ mc ⊛ z 2 ⊛ (z 3 ⊛ z 5
    ⊛ z 122 ⊝ z 4 ⊛ z 121 ⊝ z 3 ⊛ z 6 ⊛ z 120) ⊹ n 2 ⊛ me ⊛ z 2 ⊛ (z 3 ⊛ z 5 ⊛ z 122 ⊝ z 4 ⊛ z 121
    ⊝ z 3 ⊛ z 6 ⊛ z 120) ⊹ n 2 ⊛ mf ⊛ z 2 ⊛ (z 3 ⊛ z 5 ⊛ z 122 ⊝ z 4 ⊛ z 121 ⊝ z 3 ⊛ z 6 ⊛ z 120)),
(2090, mc ⊛ (z 120 ⊛ z 2082 ⊹ z 121 ⊛ z 2083 ⊹ z 122 ⊛ z 2084 ⊹ z 2 ⊛ z 4 ⊛ z 130 ⊹ z 2 ⊛ z 3 ⊛ z
    5 ⊛ z 138 ⊝ z 2 ⊛ z 3 ⊛ z 6 ⊛ z 137) ⊝ z 2086 ⊛ z 1 ⊛ z 3 ⊛ z 43 ⊝ mg ⊛ (z 211 ⊛ z 2061 ⊹ z
    217 ⊛ z 2063 ⊝ z 182 ⊛ z 2076 ⊝ z 192 ⊛ z 2074 ⊝ z 214 ⊛ z 2062 ⊝ z 187 ⊛ (z 2071 ⊹ z 2072)) ⊝
    me ⊛ (z 120 ⊛ z 1067 ⊹ z 158 ⊛ z 29 ⊛ z 43 ⊛ z 122 ⊹ z 2 ⊛ z 3 ⊛ z 5 ⊛ z 169 ⊹ z 163 ⊛ z 10 ⊛
    z 29 ⊛ z 43 ⊛ z 121 ⊹ z 2 ⊛ z 3 ⊛ z 6 ⊛ z 9 ⊛ z 166 ⊝ z 121 ⊛ z 1066 ⊝ z 122 ⊛ z 1081 ⊝ z 2 ⊛
    z 4 ⊛ z 145 ⊝ z 9 ⊛ z 121 ⊛ z 2085 ⊝ z 10 ⊛ z 120 ⊛ z 2085 ⊝ z 2 ⊛ z 3 ⊛ z 5 ⊛ z 146 ⊝ z 2 ⊛ z
    3 ⊛ z 6 ⊛ z 126 ⊝ z 2 ⊛ z 4 ⊛ z 9 ⊛ z 159 ⊝ z 2 ⊛ z 4 ⊛ z 10 ⊛ z 166 ⊝ z 163 ⊛ z 9 ⊛ z 29 ⊛ z
    43 ⊛ z 120 ⊝ z 2 ⊛ z 3 ⊛ z 6 ⊛ z 10 ⊛ z 159) ⊝ mf ⊛ (z 120 ⊛ z 1067 ⊹ d3 ⊛ z 29 ⊛ z 43 ⊛ z 122
    ⊹ z 2 ⊛ z 3 ⊛ z 5 ⊛ z 157 ⊹ d2 ⊛ z 10 ⊛ z 29 ⊛ z 43 ⊛ z 121 ⊹ z 2 ⊛ z 3 ⊛ z 6 ⊛ z 9 ⊛ z 154 ⊝
    z 121 ⊛ z 1066 ⊝ z 122 ⊛ z 1081 ⊝ z 2 ⊛ z 4 ⊛ z 145 ⊝ z 9 ⊛ z 121 ⊛ z 1074 ⊝ z 10 ⊛ z 120 ⊛ z
    1074 ⊝ z 2 ⊛ z 3 ⊛ z 5 ⊛ z 146 ⊝ z 2 ⊛ z 3 ⊛ z 6 ⊛ z 126 ⊝ z 2 ⊛ z 4 ⊛ z 9 ⊛ z 148 ⊝ z 2 ⊛ z 4
    ⊛ z 10 ⊛ z 154 ⊝ d2 ⊛ z 9 ⊛ z 29 ⊛ z 43 ⊛ z 120 ⊝ z 2 ⊛ z 3 ⊛ z 6 ⊛ z 10 ⊛ z 148)),
(2091, z 542 ⊛ z 2081 ⊹ z 910 ⊛ z 1484 ⊝ z 539 ⊛ z 2089 ⊝ z 545 ⊛ z 2090 ⊝ z 909 ⊛ z 1188 ⊝ z 912
    ⊛ z 1541),
(2092, id22 ⊛ z 3 ⊛ z 43 ⊛ z 53),
(2093, ic11 ⊛ z 4 ⊛ z 6 ⊛ z 43),
(2094, ic33 ⊛ z 4 ⊛ z 5 ⊛ z 43),
(2095, ie33 ⊛ z 4 ⊛ z 5 ⊛ z 43),
(2096, ie31 ⊛ z 4 ⊛ z 5 ⊛ z 43),
(2097, ic31 ⊛ z 4 ⊛ z 5 ⊛ z 43),
(2098, ic31 ⊛ z 4 ⊛ z 6 ⊛ z 43),
(2099, z 50 ⊛ z 2097 ⊹ z 52 ⊛ z 2098 ⊹ z 3 ⊛ z 43 ⊛ z 768 ⊹ z 3 ⊛ z 43 ⊛ z 790 ⊹ z 27 ⊛ z 43 ⊛ z
    806 ⊹ z 27 ⊛ z 43 ⊛ z 817 ⊹ z 29 ⊛ z 43 ⊛ z 815 ⊹ z 29 ⊛ z 43 ⊛ z 840 ⊹ z 43 ⊛ z 785 ⊛ z 1141
    ⊹ z 43 ⊛ z 833 ⊛ z 1078 ⊹ z 43 ⊛ z 843 ⊛ z 1077 ⊹ z 43 ⊛ z 856 ⊛ z 2065 ⊹ z 43 ⊛ z 861 ⊛ z
    2066 ⊹ z 43 ⊛ z 865 ⊛ z 2067 ⊹ z 43 ⊛ z 869 ⊛ z 2065 ⊹ z 43 ⊛ z 873 ⊛ z 2066 ⊹ ic22 ⊛ z 3 ⊛ z
    43 ⊛ z 51 ⊹ id11 ⊛ z 43 ⊛ z 61 ⊛ z 1141 ⊹ id22 ⊛ z 3 ⊛ z 43 ⊛ z 51 ⊹ ie11 ⊛ z 27 ⊛ z 43 ⊛ z 81
    ⊹ ie22 ⊛ z 29 ⊛ z 43 ⊛ z 82 ⊹ ie31 ⊛ z 27 ⊛ z 43 ⊛ z 52 ⊹ if11 ⊛ z 43 ⊛ z 90 ⊛ z 1078 ⊹ if11 ⊛
    z 43 ⊛ z 94 ⊛ z 1077 ⊹ if22 ⊛ z 29 ⊛ z 43 ⊛ z 82 ⊹ ig11 ⊛ z 43 ⊛ z 110 ⊛ z 2065 ⊹ ig22 ⊛ z 43
    ⊛ z 112 ⊛ z 2067 ⊹ ig31 ⊛ z 43 ⊛ z 110 ⊛ z 2066 ⊹ ig31 ⊛ z 43 ⊛ z 115 ⊛ z 2065 ⊹ ig33 ⊛ z 43 ⊛
    z 115 ⊛ z 2066 ⊹ z 4 ⊛ z 5 ⊛ z 43 ⊛ z 764 ⊹ z 4 ⊛ z 6 ⊛ z 43 ⊛ z 772 ⊹ n 2 ⊛ z 2086 ⊛ z 3 ⊛ z
    43 ⊛ z 118 ⊹ n 2 ⊛ mg ⊛ (z 211 ⊛ z 2076 ⊹ z 217 ⊛ z 2074 ⊹ z 214 ⊛ (z 2071 ⊹ z 2072)) ⊝ z 50 ⊛
    z 2093 ⊝ z 52 ⊛ z 2094 ⊝ z 52 ⊛ z 2095 ⊝ z 81 ⊛ z 2096 ⊝ z 43 ⊛ z 794 ⊛ z 1142 ⊝ id11 ⊛ z 43 ⊛
    z 64 ⊛ z 1142 ⊝ z 4 ⊛ z 5 ⊛ z 43 ⊛ z 776 ⊝ z 4 ⊛ z 5 ⊛ z 43 ⊛ z 811 ⊝ z 4 ⊛ z 5 ⊛ z 43 ⊛ z 822
    ⊝ z 4 ⊛ z 6 ⊛ z 43 ⊛ z 761 ⊝ n 2 ⊛ mc ⊛ (z 130 ⊛ z 2083 ⊝ z 137 ⊛ z 2082 ⊝ z 138 ⊛ z 2084) ⊝ n
    2 ⊛ me ⊛ (z 145 ⊛ z 1066 ⊹ z 159 ⊛ z 2085 ⊹ z 169 ⊛ z 1081 ⊹ z 9 ⊛ z 145 ⊛ z 2085 ⊹ z 9 ⊛ z
    159 ⊛ z 1066 ⊹ z 9 ⊛ z 166 ⊛ z 1067 ⊹ z 10 ⊛ z 126 ⊛ z 2085 ⊹ z 10 ⊛ z 166 ⊛ z 1066 ⊹ z 158 ⊛
    z 29 ⊛ z 43 ⊛ z 146 ⊹ z 163 ⊛ z 9 ⊛ z 29 ⊛ z 43 ⊛ z 126 ⊝ z 126 ⊛ z 1067 ⊝ z 146 ⊛ z 1081 ⊝ z
    10 ⊛ z 159 ⊛ z 1067 ⊝ z 158 ⊛ z 29 ⊛ z 43 ⊛ z 169 ⊝ z 163 ⊛ z 29 ⊛ z 43 ⊛ z 166 ⊝ z 163 ⊛ z 10
    ⊛ z 29 ⊛ z 43 ⊛ z 145) ⊝ n 2 ⊛ mf ⊛ (z 145 ⊛ z 1066 ⊹ z 148 ⊛ z 1074 ⊹ z 157 ⊛ z 1081 ⊹ z 9 ⊛
    z 145 ⊛ z 1074 ⊹ z 9 ⊛ z 148 ⊛ z 1066 ⊹ z 9 ⊛ z 154 ⊛ z 1067 ⊹ z 10 ⊛ z 126 ⊛ z 1074 ⊹ z 10 ⊛
    z 154 ⊛ z 1066 ⊹ d3 ⊛ z 29 ⊛ z 43 ⊛ z 146 ⊹ d2 ⊛ z 9 ⊛ z 29 ⊛ z 43 ⊛ z 126 ⊝ z 126 ⊛ z 1067 ⊝
    z 146 ⊛ z 1081 ⊝ z 10 ⊛ z 148 ⊛ z 1067 ⊝ d2 ⊛ z 29 ⊛ z 43 ⊛ z 154 ⊝ d3 ⊛ z 29 ⊛ z 43 ⊛ z 157 ⊝
    d2 ⊛ z 10 ⊛ z 29 ⊛ z 43 ⊛ z 145))]

/-- _mooreriderlean2012.py:3412-3507 -/
def part25 : List (ℕ × E) := [
(2100, if22 ⊛ z 29 ⊛ z 43 ⊛ z 83),
(2101, z 2092 ⊹ z 542 ⊛ z 2087 ⊹ z 916 ⊛ z 1484 ⊝ z 539 ⊛ z 2090 ⊝ z 545 ⊛ z 2099 ⊝ z 550 ⊛ z 2100
    ⊝ z 912 ⊛ z 1188 ⊝ z 919 ⊛ z 1541 ⊝ z 936 ⊛ z 1624),
(2102, neg (z 923) ⊛ z 1541 ⊝ z 937 ⊛ z 1624 ⊝ z 29 ⊛ z 43 ⊛ z 545 ⊛ z 841),
(2103, z 2079 ⊹ z 542 ⊛ z 2088 ⊹ z 958 ⊛ z 1484 ⊝ z 539 ⊛ z 2091 ⊝ z 545 ⊛ z 2101 ⊝ z 550 ⊛ z 2102
    ⊝ z 955 ⊛ z 1541 ⊝ z 957 ⊛ z 1188 ⊝ z 961 ⊛ z 1624),
(2104, z 859 ⊛ z 2051 ⊹ z 864 ⊛ z 2052 ⊹ z 14 ⊛ z 854 ⊛ z 1156 ⊝ mg ⊛ (z 200 ⊛ (z 2053 ⊹ z 2055) ⊹
    z 201 ⊛ (z 2056 ⊝ l5 ⊛ z 2052) ⊝ z 205 ⊛ (n 2 ⊛ z 2058 ⊹ l6 ⊛ z 2052))),
(2105, z 43 ⊛ z 854 ⊛ z 2065 ⊹ z 43 ⊛ z 859 ⊛ z 2066 ⊹ z 43 ⊛ z 864 ⊛ z 2067 ⊹ mg ⊛ (z 205 ⊛ z
    2076 ⊝ z 201 ⊛ z 2074 ⊝ z 200 ⊛ (z 2071 ⊹ z 2072))),
(2106, z 548 ⊛ z 2104 ⊹ z 906 ⊛ z 1196 ⊹ z 924 ⊛ z 1542 ⊝ z 540 ⊛ z 2064 ⊝ z 543 ⊛ z 2050 ⊝ z 546
    ⊛ z 2105 ⊝ z 907 ⊛ z 1487 ⊝ z 932 ⊛ z 1577),
(2107, z 907 ⊛ z 1484 ⊝ z 539 ⊛ z 2064 ⊝ z 542 ⊛ z 2050 ⊝ z 545 ⊛ z 2105 ⊝ z 906 ⊛ z 1188 ⊝ z 924
    ⊛ z 1541),
(2108, z 921 ⊛ z 1542 ⊹ n 2 ⊛ z 548 ⊛ z 791 ⊛ z 1152 ⊝ z 929 ⊛ z 1577 ⊝ z 3 ⊛ z 43 ⊛ z 546 ⊛ z
    791),
(2109, n 2 ⊛ z 158 ⊛ z 29 ⊛ (z 30 ⊹ z 69) ⊝ d2 ⊛ z 1190 ⊝ l4 ⊛ z 1190),
(2110, (me ⊛ z 2109 ⊹ mf ⊛ z 1191) ⊛ (z 9 ⊛ z 124 ⊝ z 10 ⊛ z 123) ⊝ z 1 ⊛ (me ⊛ z 161 ⊹ mf ⊛ z
    150) ⊛ (z 4 ⊛ z 9 ⊹ z 3 ⊛ z 6 ⊛ z 10)),
(2111, z 158 ⊛ z 1159 ⊝ d2 ⊛ z 1160 ⊝ l4 ⊛ z 1160),
(2112, me ⊛ (d1 ⊛ z 124 ⊛ z 1156 ⊹ z 9 ⊛ z 124 ⊛ z 2111 ⊹ z 163 ⊛ z 9 ⊛ z 123 ⊛ z 1153 ⊹ z 163 ⊛ z
    10 ⊛ z 124 ⊛ z 1153 ⊹ z 1 ⊛ z 3 ⊛ z 5 ⊛ z 141 ⊹ z 1 ⊛ z 3 ⊛ z 5 ⊛ z 167 ⊹ z 1 ⊛ z 3 ⊛ z 6 ⊛ z
    9 ⊛ z 164 ⊝ n 2 ⊛ d1 ⊛ z 125 ⊛ z 1152 ⊝ z 158 ⊛ z 125 ⊛ z 1153 ⊝ z 1 ⊛ z 4 ⊛ z 143 ⊝ z 10 ⊛ z
    123 ⊛ z 2111 ⊝ z 1 ⊛ z 4 ⊛ z 9 ⊛ z 160 ⊝ z 1 ⊛ z 4 ⊛ z 10 ⊛ z 164 ⊝ z 1 ⊛ z 3 ⊛ z 6 ⊛ z 10 ⊛ z
    160) ⊹ mf ⊛ (d1 ⊛ z 124 ⊛ z 1156 ⊹ z 9 ⊛ z 124 ⊛ z 1161 ⊹ d2 ⊛ z 9 ⊛ z 123 ⊛ z 1153 ⊹ d2 ⊛ z
    10 ⊛ z 124 ⊛ z 1153 ⊹ z 1 ⊛ z 3 ⊛ z 5 ⊛ z 141 ⊹ z 1 ⊛ z 3 ⊛ z 5 ⊛ z 155 ⊹ z 1 ⊛ z 3 ⊛ z 6 ⊛ z
    9 ⊛ z 152 ⊝ n 2 ⊛ d1 ⊛ z 125 ⊛ z 1152 ⊝ d3 ⊛ z 125 ⊛ z 1153 ⊝ z 1 ⊛ z 4 ⊛ z 143 ⊝ z 10 ⊛ z 123
    ⊛ z 1161 ⊝ z 1 ⊛ z 4 ⊛ z 9 ⊛ z 149 ⊝ z 1 ⊛ z 4 ⊛ z 10 ⊛ z 152 ⊝ z 1 ⊛ z 3 ⊛ z 6 ⊛ z 10 ⊛ z
    149) ⊝ mc ⊛ (z 1 ⊛ z 4 ⊛ z 128 ⊹ n 2 ⊛ l1 ⊛ z 125 ⊛ z 1152 ⊝ n 2 ⊛ l2 ⊛ z 123 ⊛ z 1152 ⊝ l1 ⊛
    z 124 ⊛ z 1156 ⊝ z 1 ⊛ z 3 ⊛ z 5 ⊛ z 132 ⊝ z 1 ⊛ z 3 ⊛ z 6 ⊛ z 135) ⊝ mg ⊛ (z 213 ⊛ z 2048 ⊝ z
    210 ⊛ z 2047 ⊝ z 216 ⊛ z 2049 ⊝ z 188 ⊛ (z 2053 ⊹ z 2055) ⊝ z 183 ⊛ (n 2 ⊛ z 2058 ⊹ l6 ⊛ z
    2052) ⊝ z 193 ⊛ (z 2056 ⊝ l5 ⊛ z 2052))),
(2113, z 2110 ⊹ z 543 ⊛ z 2080 ⊹ z 548 ⊛ z 2112 ⊹ z 910 ⊛ z 1196 ⊹ z 916 ⊛ z 1542 ⊝ z 540 ⊛ z 2081
    ⊝ z 546 ⊛ z 2087 ⊝ z 914 ⊛ z 1487 ⊝ z 915 ⊛ z 1577),
(2114, mc ⊛ (z 2 ⊛ z 4 ⊛ z 128 ⊹ n 2 ⊛ l2 ⊛ z 120 ⊛ z 1152 ⊝ n 2 ⊛ l1 ⊛ z 122 ⊛ z 1152 ⊝ l1 ⊛ z
    121 ⊛ z 1156 ⊝ z 2 ⊛ z 3 ⊛ z 5 ⊛ z 132 ⊝ z 2 ⊛ z 3 ⊛ z 6 ⊛ z 135) ⊝ mg ⊛ (z 210 ⊛ z 2061 ⊹ z
    216 ⊛ z 2063 ⊝ z 213 ⊛ z 2062 ⊝ z 187 ⊛ (z 2053 ⊹ z 2055) ⊝ z 182 ⊛ (n 2 ⊛ z 2058 ⊹ l6 ⊛ z
    2052) ⊝ z 192 ⊛ (z 2056 ⊝ l5 ⊛ z 2052)) ⊝ me ⊛ (d1 ⊛ z 121 ⊛ z 1156 ⊹ z 158 ⊛ z 122 ⊛ z 1153 ⊹
    z 9 ⊛ z 121 ⊛ z 2111 ⊹ z 10 ⊛ z 120 ⊛ z 2111 ⊹ n 2 ⊛ d1 ⊛ z 122 ⊛ z 1152 ⊹ z 163 ⊛ z 10 ⊛ z
    121 ⊛ z 1153 ⊹ z 2 ⊛ z 3 ⊛ z 5 ⊛ z 141 ⊹ z 2 ⊛ z 3 ⊛ z 5 ⊛ z 167 ⊹ z 2 ⊛ z 3 ⊛ z 6 ⊛ z 9 ⊛ z
    164 ⊝ z 2 ⊛ z 4 ⊛ z 143 ⊝ z 163 ⊛ z 9 ⊛ z 120 ⊛ z 1153 ⊝ z 2 ⊛ z 4 ⊛ z 9 ⊛ z 160 ⊝ z 2 ⊛ z 4 ⊛
    z 10 ⊛ z 164 ⊝ z 2 ⊛ z 3 ⊛ z 6 ⊛ z 10 ⊛ z 160) ⊝ mf ⊛ (d1 ⊛ z 121 ⊛ z 1156 ⊹ d3 ⊛ z 122 ⊛ z
    1153 ⊹ z 9 ⊛ z 121 ⊛ z 1161 ⊹ z 10 ⊛ z 120 ⊛ z 1161 ⊹ n 2 ⊛ d1 ⊛ z 122 ⊛ z 1152 ⊹ d2 ⊛ z 10 ⊛
    z 121 ⊛ z 1153 ⊹ z 2 ⊛ z 3 ⊛ z 5 ⊛ z 141 ⊹ z 2 ⊛ z 3 ⊛ z 5 ⊛ z 155 ⊹ z 2 ⊛ z 3 ⊛ z 6 ⊛ z 9 ⊛ z
    152 ⊝ z 2 ⊛ z 4 ⊛ z 143 ⊝ d2 ⊛ z 9 ⊛ z 120 ⊛ z 1153 ⊝ z 2 ⊛ z 4 ⊛ z 9 ⊛ z 149 ⊝ z 2 ⊛ z 4 ⊛ z
    10 ⊛ z 152 ⊝ z 2 ⊛ z 3 ⊛ z 6 ⊛ z 10 ⊛ z 149)),
(2115, (me ⊛ z 2109 ⊹ mf ⊛ z 1191) ⊛ (z 9 ⊛ z 121 ⊹ z 10 ⊛ z 120) ⊝ z 2 ⊛ (me ⊛ z 161 ⊹ mf ⊛ z
    150) ⊛ (z 4 ⊛ z 9 ⊹ z 3 ⊛ z 6 ⊛ z 10)),
(2116, z 543 ⊛ z 2081 ⊹ z 548 ⊛ z 2114 ⊹ z 909 ⊛ z 1196 ⊹ z 912 ⊛ z 1542 ⊝ z 2115 ⊝ z 540 ⊛ z 2089
    ⊝ z 546 ⊛ z 2090 ⊝ z 910 ⊛ z 1487 ⊝ z 911 ⊛ z 1577),
(2117, z 806 ⊛ z 1190 ⊹ z 817 ⊛ z 1190 ⊹ z 833 ⊛ z 1193 ⊹ z 843 ⊛ z 1192 ⊹ ie11 ⊛ z 27 ⊛ z 43 ⊛ z
    75 ⊹ ie31 ⊛ z 27 ⊛ z 43 ⊛ z 79 ⊹ if11 ⊛ z 43 ⊛ z 93 ⊛ z 1078 ⊹ if11 ⊛ z 43 ⊛ z 96 ⊛ z 1077 ⊹ n
    2 ⊛ z 29 ⊛ z 811 ⊛ (z 30 ⊹ z 69) ⊹ n 2 ⊛ z 29 ⊛ z 822 ⊛ (z 30 ⊹ z 69) ⊹ me ⊛ z 2109 ⊛ (z 159 ⊹
    z 9 ⊛ z 145 ⊹ z 10 ⊛ z 126) ⊹ mf ⊛ z 1191 ⊛ (z 148 ⊹ z 9 ⊛ z 145 ⊹ z 10 ⊛ z 126) ⊝ z 75 ⊛ z
    2096 ⊝ z 79 ⊛ z 2095 ⊝ me ⊛ z 161 ⊛ (z 2085 ⊹ z 9 ⊛ z 1066 ⊝ z 10 ⊛ z 1067) ⊝ mf ⊛ z 150 ⊛ (z
    1074 ⊹ z 9 ⊛ z 1066 ⊝ z 10 ⊛ z 1067)),
(2118, z 48 ⊛ z 2098 ⊹ z 776 ⊛ z 1156 ⊹ z 806 ⊛ z 1160 ⊹ z 811 ⊛ z 1159 ⊹ z 815 ⊛ z 1153 ⊹ z 817 ⊛
    z 1160 ⊹ z 822 ⊛ z 1159 ⊹ z 833 ⊛ z 1164 ⊹ z 840 ⊛ z 1153 ⊹ z 843 ⊛ z 1163 ⊹ z 861 ⊛ z 2051 ⊹
    z 865 ⊛ z 2052 ⊹ z 873 ⊛ z 2051 ⊹ n 2 ⊛ z 768 ⊛ z 1152 ⊹ n 2 ⊛ z 790 ⊛ z 1152 ⊹ z 14 ⊛ z 856 ⊛
    z 1156 ⊹ z 14 ⊛ z 869 ⊛ z 1156 ⊹ z 7 ⊛ z 794 ⊛ z 1156 ⊹ ic22 ⊛ z 3 ⊛ z 43 ⊛ z 47 ⊹ id22 ⊛ z 3
    ⊛ z 43 ⊛ z 47 ⊹ ie11 ⊛ z 27 ⊛ z 43 ⊛ z 73 ⊹ ie22 ⊛ z 29 ⊛ z 43 ⊛ z 76 ⊹ ie31 ⊛ z 27 ⊛ z 43 ⊛ z
    78 ⊹ if11 ⊛ z 43 ⊛ z 91 ⊛ z 1078 ⊹ if11 ⊛ z 43 ⊛ z 95 ⊛ z 1077 ⊹ if22 ⊛ z 29 ⊛ z 43 ⊛ z 76 ⊹
    ig11 ⊛ z 43 ⊛ z 111 ⊛ z 2065 ⊹ ig22 ⊛ z 43 ⊛ z 114 ⊛ z 2067 ⊹ ig31 ⊛ z 43 ⊛ z 111 ⊛ z 2066 ⊹
    ig31 ⊛ z 43 ⊛ z 116 ⊛ z 2065 ⊹ ig33 ⊛ z 43 ⊛ z 116 ⊛ z 2066 ⊹ mg ⊛ (z 210 ⊛ z 2076 ⊹ z 216 ⊛ z
    2074 ⊹ z 213 ⊛ (z 2071 ⊹ z 2072) ⊹ z 214 ⊛ (z 2053 ⊹ z 2055) ⊹ z 211 ⊛ (n 2 ⊛ z 2058 ⊹ l6 ⊛ z
    2052) ⊹ z 217 ⊛ (z 2056 ⊝ l5 ⊛ z 2052)) ⊝ z 48 ⊛ z 2094 ⊝ z 73 ⊛ z 2096 ⊝ z 78 ⊛ z 2095 ⊝ z
    764 ⊛ z 1156 ⊝ z 8 ⊛ z 785 ⊛ z 1156 ⊝ id11 ⊛ z 43 ⊛ z 62 ⊛ z 1141 ⊝ id11 ⊛ z 43 ⊛ z 65 ⊛ z
    1142 ⊝ mc ⊛ (z 128 ⊛ z 2083 ⊹ z 132 ⊛ z 2084 ⊹ n 2 ⊛ l1 ⊛ z 138 ⊛ z 1152 ⊝ z 135 ⊛ z 2082 ⊝ n
    2 ⊛ l2 ⊛ z 137 ⊛ z 1152 ⊝ l1 ⊛ z 130 ⊛ z 1156) ⊝ me ⊛ (z 141 ⊛ z 1081 ⊹ z 143 ⊛ z 1066 ⊹ z 160
    ⊛ z 2085 ⊹ z 167 ⊛ z 1081 ⊹ z 158 ⊛ z 146 ⊛ z 1153 ⊹ z 9 ⊛ z 143 ⊛ z 2085 ⊹ z 9 ⊛ z 160 ⊛ z
    1066 ⊹ z 9 ⊛ z 164 ⊛ z 1067 ⊹ z 10 ⊛ z 164 ⊛ z 1066 ⊹ n 2 ⊛ d1 ⊛ z 146 ⊛ z 1152 ⊹ z 163 ⊛ z 9
    ⊛ z 126 ⊛ z 1153 ⊝ z 159 ⊛ z 2111 ⊝ n 2 ⊛ d1 ⊛ z 169 ⊛ z 1152 ⊝ d1 ⊛ z 145 ⊛ z 1156 ⊝ z 158 ⊛
    z 169 ⊛ z 1153 ⊝ z 163 ⊛ z 166 ⊛ z 1153 ⊝ z 9 ⊛ z 145 ⊛ z 2111 ⊝ z 10 ⊛ z 126 ⊛ z 2111 ⊝ z 10
    ⊛ z 160 ⊛ z 1067 ⊝ d1 ⊛ z 9 ⊛ z 159 ⊛ z 1156 ⊝ d1 ⊛ z 10 ⊛ z 166 ⊛ z 1156 ⊝ z 158 ⊛ z 29 ⊛ z
    43 ⊛ z 141 ⊝ z 158 ⊛ z 29 ⊛ z 43 ⊛ z 167 ⊝ z 163 ⊛ z 10 ⊛ z 145 ⊛ z 1153 ⊝ z 163 ⊛ z 29 ⊛ z 43
    ⊛ z 164 ⊝ z 163 ⊛ z 10 ⊛ z 29 ⊛ z 43 ⊛ z 143) ⊝ mf ⊛ (z 141 ⊛ z 1081 ⊹ z 143 ⊛ z 1066 ⊹ z 149
    ⊛ z 1074 ⊹ z 155 ⊛ z 1081 ⊹ d3 ⊛ z 146 ⊛ z 1153 ⊹ z 9 ⊛ z 143 ⊛ z 1074 ⊹ z 9 ⊛ z 149 ⊛ z 1066
    ⊹ z 9 ⊛ z 152 ⊛ z 1067 ⊹ z 10 ⊛ z 152 ⊛ z 1066 ⊹ n 2 ⊛ d1 ⊛ z 146 ⊛ z 1152 ⊹ d2 ⊛ z 9 ⊛ z 126
    ⊛ z 1153 ⊝ z 148 ⊛ z 1161 ⊝ n 2 ⊛ d1 ⊛ z 157 ⊛ z 1152 ⊝ d1 ⊛ z 145 ⊛ z 1156 ⊝ d2 ⊛ z 154 ⊛ z
    1153 ⊝ d3 ⊛ z 157 ⊛ z 1153 ⊝ z 9 ⊛ z 145 ⊛ z 1161 ⊝ z 10 ⊛ z 126 ⊛ z 1161 ⊝ z 10 ⊛ z 149 ⊛ z
    1067 ⊝ d1 ⊛ z 9 ⊛ z 148 ⊛ z 1156 ⊝ d1 ⊛ z 10 ⊛ z 154 ⊛ z 1156 ⊝ d2 ⊛ z 10 ⊛ z 145 ⊛ z 1153 ⊝
    d2 ⊛ z 29 ⊛ z 43 ⊛ z 152 ⊝ d3 ⊛ z 29 ⊛ z 43 ⊛ z 141 ⊝ d3 ⊛ z 29 ⊛ z 43 ⊛ z 155 ⊝ d2 ⊛ z 10 ⊛ z
    29 ⊛ z 43 ⊛ z 143)),
(2119, z 2117 ⊹ z 543 ⊛ z 2087 ⊹ z 548 ⊛ z 2118 ⊹ z 551 ⊛ z 2100 ⊹ z 912 ⊛ z 1196 ⊹ z 919 ⊛ z 1542
    ⊝ z 540 ⊛ z 2090 ⊝ z 546 ⊛ z 2099 ⊝ z 916 ⊛ z 1487 ⊝ z 927 ⊛ z 1577 ⊝ z 936 ⊛ z 1623)]

/-- _mooreriderlean2012.py:3508-3606 -/
def part26 : List (ℕ × E) := [
(2120, z 923 ⊛ z 1542 ⊹ z 548 ⊛ z 841 ⊛ z 1153 ⊝ z 931 ⊛ z 1577 ⊝ z 937 ⊛ z 1623 ⊝ z 29 ⊛ z 43 ⊛ z
    546 ⊛ z 841),
(2121, z 2108 ⊹ z 542 ⊛ z 2113 ⊹ z 972 ⊛ z 1484 ⊝ z 539 ⊛ z 2116 ⊝ z 545 ⊛ z 2119 ⊝ z 550 ⊛ z 2120
    ⊝ z 970 ⊛ z 1541 ⊝ z 971 ⊛ z 1188 ⊝ z 975 ⊛ z 1624),
(2122, z 964 ⊛ z 2106 ⊹ z 973 ⊛ z 2103 ⊝ z 960 ⊛ z 2121 ⊝ z 978 ⊛ z 2107),
(2123, ie31 ⊛ z 29 ⊛ (z 30 ⊹ z 69)),
(2124, ie33 ⊛ z 29 ⊛ (z 30 ⊹ z 69)),
(2125, z 805 ⊛ z 1190 ⊹ z 819 ⊛ z 1190 ⊹ z 836 ⊛ z 1193 ⊹ z 845 ⊛ z 1192 ⊹ n 2 ⊛ z 75 ⊛ z 2123 ⊹ n
    2 ⊛ z 79 ⊛ z 2124 ⊹ ie11 ⊛ z 75 ⊛ z 1190 ⊹ ie31 ⊛ z 79 ⊛ z 1190 ⊹ if11 ⊛ z 93 ⊛ z 1193 ⊹ if11
    ⊛ z 96 ⊛ z 1192 ⊹ n 2 ⊛ me ⊛ z 161 ⊛ z 2109 ⊹ n 2 ⊛ mf ⊛ z 150 ⊛ z 1191 ⊹ n 2 ⊛ z 29 ⊛ z 810 ⊛
    (z 30 ⊹ z 69) ⊹ n 2 ⊛ z 29 ⊛ z 824 ⊛ (z 30 ⊹ z 69)),
(2126, z 805 ⊛ z 1160 ⊹ z 810 ⊛ z 1159 ⊹ z 819 ⊛ z 1160 ⊹ z 824 ⊛ z 1159 ⊹ z 836 ⊛ z 1164 ⊹ z 845
    ⊛ z 1163 ⊹ n 2 ⊛ z 73 ⊛ z 2123 ⊹ n 2 ⊛ z 78 ⊛ z 2124 ⊹ ie11 ⊛ z 73 ⊛ z 1190 ⊹ ie31 ⊛ z 78 ⊛ z
    1190 ⊹ if11 ⊛ z 91 ⊛ z 1193 ⊹ if11 ⊛ z 95 ⊛ z 1192 ⊹ me ⊛ z 2109 ⊛ (z 160 ⊹ z 9 ⊛ z 143) ⊹ mf
    ⊛ z 1191 ⊛ (z 149 ⊹ z 9 ⊛ z 143) ⊹ me ⊛ z 161 ⊛ (z 2111 ⊹ d1 ⊛ z 9 ⊛ z 1156) ⊹ mf ⊛ z 150 ⊛ (z
    1161 ⊹ d1 ⊛ z 9 ⊛ z 1156)),
(2127, n 2 ⊛ z 52 ⊛ z 2124 ⊹ n 2 ⊛ z 81 ⊛ z 2123 ⊹ ie11 ⊛ z 81 ⊛ z 1190 ⊹ ie31 ⊛ z 52 ⊛ z 1190 ⊹
    if11 ⊛ z 90 ⊛ z 1193 ⊹ if11 ⊛ z 94 ⊛ z 1192 ⊹ z 27 ⊛ z 43 ⊛ z 805 ⊹ z 27 ⊛ z 43 ⊛ z 819 ⊹ z 43
    ⊛ z 836 ⊛ z 1078 ⊹ z 43 ⊛ z 845 ⊛ z 1077 ⊹ me ⊛ z 2109 ⊛ (z 159 ⊹ z 9 ⊛ z 145 ⊹ z 10 ⊛ z 126)
    ⊹ mf ⊛ z 1191 ⊛ (z 148 ⊹ z 9 ⊛ z 145 ⊹ z 10 ⊛ z 126) ⊝ z 4 ⊛ z 5 ⊛ z 43 ⊛ z 810 ⊝ z 4 ⊛ z 5 ⊛
    z 43 ⊛ z 824 ⊝ me ⊛ z 161 ⊛ (z 2085 ⊹ z 9 ⊛ z 1066 ⊝ z 10 ⊛ z 1067) ⊝ mf ⊛ z 150 ⊛ (z 1074 ⊹ z
    9 ⊛ z 1066 ⊝ z 10 ⊛ z 1067)),
(2128, z 2125 ⊹ z 540 ⊛ z 2115 ⊹ z 543 ⊛ z 2110 ⊹ z 548 ⊛ z 2126 ⊹ z 922 ⊛ z 1542 ⊝ z 546 ⊛ z 2127
    ⊝ z 899 ⊛ z 1196 ⊝ z 900 ⊛ z 1487 ⊝ z 930 ⊛ z 1577),
(2129, z 803 ⊛ z 1190 ⊹ z 818 ⊛ z 1190 ⊹ z 834 ⊛ z 1193 ⊹ z 844 ⊛ z 1192 ⊹ ie11 ⊛ z 75 ⊛ z 1160 ⊹
    ie31 ⊛ z 75 ⊛ z 1159 ⊹ ie31 ⊛ z 79 ⊛ z 1160 ⊹ ie33 ⊛ z 79 ⊛ z 1159 ⊹ if11 ⊛ z 93 ⊛ z 1164 ⊹
    if11 ⊛ z 96 ⊛ z 1163 ⊹ n 2 ⊛ z 29 ⊛ z 808 ⊛ (z 30 ⊹ z 69) ⊹ n 2 ⊛ z 29 ⊛ z 823 ⊛ (z 30 ⊹ z 69)
    ⊹ me ⊛ z 2109 ⊛ (z 160 ⊹ z 9 ⊛ z 143) ⊹ mf ⊛ z 1191 ⊛ (z 149 ⊹ z 9 ⊛ z 143) ⊹ me ⊛ z 161 ⊛ (z
    2111 ⊹ d1 ⊛ z 9 ⊛ z 1156) ⊹ mf ⊛ z 150 ⊛ (z 1161 ⊹ d1 ⊛ z 9 ⊛ z 1156)),
(2131, z 774 ⊛ z 1156 ⊹ z 803 ⊛ z 1160 ⊹ z 808 ⊛ z 1159 ⊹ z 813 ⊛ z 1153 ⊹ z 818 ⊛ z 1160 ⊹ z 823
    ⊛ z 1159 ⊹ z 834 ⊛ z 1164 ⊹ z 838 ⊛ z 1153 ⊹ z 844 ⊛ z 1163 ⊹ z 862 ⊛ z 2051 ⊹ z 867 ⊛ z 2052
    ⊹ z 874 ⊛ z 2051 ⊹ n 2 ⊛ z 767 ⊛ z 1152 ⊹ n 2 ⊛ z 789 ⊛ z 1152 ⊹ ic33 ⊛ z 48 ⊛ z 1156 ⊹ ie11 ⊛
    z 73 ⊛ z 1160 ⊹ ie22 ⊛ z 76 ⊛ z 1153 ⊹ ie31 ⊛ z 73 ⊛ z 1159 ⊹ ie31 ⊛ z 78 ⊛ z 1160 ⊹ ie33 ⊛ z
    78 ⊛ z 1159 ⊹ if11 ⊛ z 91 ⊛ z 1164 ⊹ if11 ⊛ z 95 ⊛ z 1163 ⊹ if22 ⊛ z 76 ⊛ z 1153 ⊹ ig22 ⊛ z
    114 ⊛ z 2052 ⊹ ig31 ⊛ z 111 ⊛ z 2051 ⊹ ig33 ⊛ z 116 ⊛ z 2051 ⊹ z 14 ⊛ z 857 ⊛ z 1156 ⊹ z 14 ⊛
    z 870 ⊛ z 1156 ⊹ z 2059 ⊛ z 111 ⊛ z 1156 ⊹ z 2130 ⊛ z 116 ⊛ z 1156 ⊹ z 7 ⊛ z 795 ⊛ z 1156 ⊹ z
    8 ⊛ z 786 ⊛ z 1156 ⊹ n 2 ⊛ ic22 ⊛ z 47 ⊛ z 1152 ⊹ n 2 ⊛ id22 ⊛ z 47 ⊛ z 1152 ⊹ id11 ⊛ z 7 ⊛ z
    65 ⊛ z 1156 ⊹ id11 ⊛ z 8 ⊛ z 62 ⊛ z 1156 ⊹ n 2 ⊛ mc ⊛ (l1 ⊛ z 128 ⊛ z 1156 ⊹ n 2 ⊛ l1 ⊛ z 132
    ⊛ z 1152 ⊹ n 2 ⊛ l2 ⊛ z 135 ⊛ z 1152) ⊹ n 2 ⊛ mg ⊛ (z 213 ⊛ (z 2053 ⊹ z 2055) ⊹ z 210 ⊛ (n 2 ⊛
    z 2058 ⊹ l6 ⊛ z 2052) ⊹ z 216 ⊛ (z 2056 ⊝ l5 ⊛ z 2052)) ⊹ n 2 ⊛ me ⊛ (z 160 ⊛ z 2111 ⊹ d1 ⊛ z
    143 ⊛ z 1156 ⊹ z 158 ⊛ z 141 ⊛ z 1153 ⊹ z 158 ⊛ z 167 ⊛ z 1153 ⊹ z 163 ⊛ z 164 ⊛ z 1153 ⊹ z 9
    ⊛ z 143 ⊛ z 2111 ⊹ n 2 ⊛ d1 ⊛ z 141 ⊛ z 1152 ⊹ n 2 ⊛ d1 ⊛ z 167 ⊛ z 1152 ⊹ d1 ⊛ z 9 ⊛ z 160 ⊛
    z 1156 ⊹ d1 ⊛ z 10 ⊛ z 164 ⊛ z 1156 ⊹ z 163 ⊛ z 10 ⊛ z 143 ⊛ z 1153) ⊹ n 2 ⊛ mf ⊛ (z 149 ⊛ z
    1161 ⊹ d1 ⊛ z 143 ⊛ z 1156 ⊹ d2 ⊛ z 152 ⊛ z 1153 ⊹ d3 ⊛ z 141 ⊛ z 1153 ⊹ d3 ⊛ z 155 ⊛ z 1153 ⊹
    z 9 ⊛ z 143 ⊛ z 1161 ⊹ n 2 ⊛ d1 ⊛ z 141 ⊛ z 1152 ⊹ n 2 ⊛ d1 ⊛ z 155 ⊛ z 1152 ⊹ d1 ⊛ z 9 ⊛ z
    149 ⊛ z 1156 ⊹ d1 ⊛ z 10 ⊛ z 152 ⊛ z 1156 ⊹ d2 ⊛ z 10 ⊛ z 143 ⊛ z 1153)),
(2132, ic33 ⊛ z 52 ⊛ z 1156 ⊹ ie11 ⊛ z 81 ⊛ z 1160 ⊹ ie22 ⊛ z 82 ⊛ z 1153 ⊹ ie31 ⊛ z 52 ⊛ z 1160 ⊹
    ie31 ⊛ z 81 ⊛ z 1159 ⊹ ie33 ⊛ z 52 ⊛ z 1159 ⊹ if11 ⊛ z 90 ⊛ z 1164 ⊹ if11 ⊛ z 94 ⊛ z 1163 ⊹
    if22 ⊛ z 82 ⊛ z 1153 ⊹ ig22 ⊛ z 112 ⊛ z 2052 ⊹ ig31 ⊛ z 110 ⊛ z 2051 ⊹ ig33 ⊛ z 115 ⊛ z 2051 ⊹
    z 2059 ⊛ z 110 ⊛ z 1156 ⊹ z 2130 ⊛ z 115 ⊛ z 1156 ⊹ z 3 ⊛ z 43 ⊛ z 767 ⊹ z 3 ⊛ z 43 ⊛ z 789 ⊹
    z 27 ⊛ z 43 ⊛ z 803 ⊹ z 27 ⊛ z 43 ⊛ z 818 ⊹ z 29 ⊛ z 43 ⊛ z 813 ⊹ z 29 ⊛ z 43 ⊛ z 838 ⊹ z 43 ⊛
    z 834 ⊛ z 1078 ⊹ z 43 ⊛ z 844 ⊛ z 1077 ⊹ z 43 ⊛ z 857 ⊛ z 2065 ⊹ z 43 ⊛ z 862 ⊛ z 2066 ⊹ z 43
    ⊛ z 867 ⊛ z 2067 ⊹ z 43 ⊛ z 870 ⊛ z 2065 ⊹ z 43 ⊛ z 874 ⊛ z 2066 ⊹ n 2 ⊛ ic22 ⊛ z 51 ⊛ z 1152
    ⊹ n 2 ⊛ id22 ⊛ z 51 ⊛ z 1152 ⊹ id11 ⊛ z 7 ⊛ z 64 ⊛ z 1156 ⊹ z 4 ⊛ z 6 ⊛ z 43 ⊛ z 770 ⊹ mg ⊛ (z
    210 ⊛ z 2076 ⊹ z 216 ⊛ z 2074 ⊹ z 213 ⊛ (z 2071 ⊹ z 2072) ⊹ z 214 ⊛ (z 2053 ⊹ z 2055) ⊹ z 211
    ⊛ (n 2 ⊛ z 2058 ⊹ l6 ⊛ z 2052) ⊹ z 217 ⊛ (z 2056 ⊝ l5 ⊛ z 2052)) ⊝ ic31 ⊛ z 50 ⊛ z 1156 ⊝ z 43
    ⊛ z 786 ⊛ z 1141 ⊝ z 43 ⊛ z 795 ⊛ z 1142 ⊝ id11 ⊛ z 8 ⊛ z 61 ⊛ z 1156 ⊝ z 4 ⊛ z 5 ⊛ z 43 ⊛ z
    774 ⊝ z 4 ⊛ z 5 ⊛ z 43 ⊛ z 808 ⊝ z 4 ⊛ z 5 ⊛ z 43 ⊛ z 823 ⊝ mc ⊛ (z 128 ⊛ z 2083 ⊹ z 132 ⊛ z
    2084 ⊹ n 2 ⊛ l1 ⊛ z 138 ⊛ z 1152 ⊝ z 135 ⊛ z 2082 ⊝ n 2 ⊛ l2 ⊛ z 137 ⊛ z 1152 ⊝ l1 ⊛ z 130 ⊛ z
    1156) ⊝ me ⊛ (z 141 ⊛ z 1081 ⊹ z 143 ⊛ z 1066 ⊹ z 160 ⊛ z 2085 ⊹ z 167 ⊛ z 1081 ⊹ z 158 ⊛ z
    146 ⊛ z 1153 ⊹ z 9 ⊛ z 143 ⊛ z 2085 ⊹ z 9 ⊛ z 160 ⊛ z 1066 ⊹ z 9 ⊛ z 164 ⊛ z 1067 ⊹ z 10 ⊛ z
    164 ⊛ z 1066 ⊹ n 2 ⊛ d1 ⊛ z 146 ⊛ z 1152 ⊹ z 163 ⊛ z 9 ⊛ z 126 ⊛ z 1153 ⊝ z 159 ⊛ z 2111 ⊝ n 2
    ⊛ d1 ⊛ z 169 ⊛ z 1152 ⊝ d1 ⊛ z 145 ⊛ z 1156 ⊝ z 158 ⊛ z 169 ⊛ z 1153 ⊝ z 163 ⊛ z 166 ⊛ z 1153
    ⊝ z 9 ⊛ z 145 ⊛ z 2111 ⊝ z 10 ⊛ z 126 ⊛ z 2111 ⊝ z 10 ⊛ z 160 ⊛ z 1067 ⊝ d1 ⊛ z 9 ⊛ z 159 ⊛ z
    1156 ⊝ d1 ⊛ z 10 ⊛ z 166 ⊛ z 1156 ⊝ z 158 ⊛ z 29 ⊛ z 43 ⊛ z 141 ⊝ z 158 ⊛ z 29 ⊛ z 43 ⊛ z 167
    ⊝ z 163 ⊛ z 10 ⊛ z 145 ⊛ z 1153 ⊝ z 163 ⊛ z 29 ⊛ z 43 ⊛ z 164 ⊝ z 163 ⊛ z 10 ⊛ z 29 ⊛ z 43 ⊛ z
    143) ⊝ mf ⊛ (z 141 ⊛ z 1081 ⊹ z 143 ⊛ z 1066 ⊹ z 149 ⊛ z 1074 ⊹ z 155 ⊛ z 1081 ⊹ d3 ⊛ z 146 ⊛
    z 1153 ⊹ z 9 ⊛ z 143 ⊛ z 1074 ⊹ z 9 ⊛ z 149 ⊛ z 1066 ⊹ z 9 ⊛ z 152 ⊛ z 1067 ⊹ z 10 ⊛ z 152 ⊛ z
    1066 ⊹ n 2 ⊛ d1 ⊛ z 146 ⊛ z 1152 ⊹ d2 ⊛ z 9 ⊛ z 126 ⊛ z 1153 ⊝ z 148 ⊛ z 1161 ⊝ n 2 ⊛ d1 ⊛ z
    157 ⊛ z 1152 ⊝ d1 ⊛ z 145 ⊛ z 1156 ⊝ d2 ⊛ z 154 ⊛ z 1153 ⊝ d3 ⊛ z 157 ⊛ z 1153 ⊝ z 9 ⊛ z 145 ⊛
    z 1161 ⊝ z 10 ⊛ z 126 ⊛ z 1161 ⊝ z 10 ⊛ z 149 ⊛ z 1067 ⊝ d1 ⊛ z 9 ⊛ z 148 ⊛ z 1156 ⊝ d1 ⊛ z 10
    ⊛ z 154 ⊛ z 1156 ⊝ d2 ⊛ z 10 ⊛ z 145 ⊛ z 1153 ⊝ d2 ⊛ z 29 ⊛ z 43 ⊛ z 152 ⊝ d3 ⊛ z 29 ⊛ z 43 ⊛
    z 141 ⊝ d3 ⊛ z 29 ⊛ z 43 ⊛ z 155 ⊝ d2 ⊛ z 10 ⊛ z 29 ⊛ z 43 ⊛ z 143)),
(2133, z 2129 ⊹ z 543 ⊛ z 2112 ⊹ z 548 ⊛ z 2131 ⊹ z 911 ⊛ z 1196 ⊹ z 920 ⊛ z 1542 ⊹ if22 ⊛ z 83 ⊛
    z 551 ⊛ z 1153 ⊝ z 540 ⊛ z 2114 ⊝ z 546 ⊛ z 2132 ⊝ z 915 ⊛ z 1487 ⊝ z 928 ⊛ z 1577 ⊝ z 934 ⊛ z
    1623),
(2134, z 2128 ⊹ z 543 ⊛ z 2113 ⊹ z 548 ⊛ z 2133 ⊹ z 551 ⊛ z 2120 ⊹ z 970 ⊛ z 1542 ⊹ z 971 ⊛ z 1196
    ⊝ z 540 ⊛ z 2116 ⊝ z 546 ⊛ z 2119 ⊝ z 967 ⊛ z 1577 ⊝ z 972 ⊛ z 1487 ⊝ z 975 ⊛ z 1623),
(2135, z 539 ⊛ z 2115 ⊹ z 542 ⊛ z 2110 ⊹ z 899 ⊛ z 1188 ⊹ z 900 ⊛ z 1484 ⊝ z 545 ⊛ z 2127 ⊝ z 922
    ⊛ z 1541),
(2136, z 542 ⊛ z 2112 ⊹ z 915 ⊛ z 1484 ⊹ n 2 ⊛ id22 ⊛ z 53 ⊛ z 1152 ⊝ z 539 ⊛ z 2114 ⊝ z 545 ⊛ z
    2132 ⊝ z 911 ⊛ z 1188 ⊝ z 920 ⊛ z 1541 ⊝ z 934 ⊛ z 1624 ⊝ if22 ⊛ z 83 ⊛ z 550 ⊛ z 1153),
(2137, z 2135 ⊹ z 543 ⊛ z 2088 ⊹ z 548 ⊛ z 2136 ⊹ z 551 ⊛ z 2102 ⊹ z 955 ⊛ z 1542 ⊹ z 957 ⊛ z 1196
    ⊝ z 540 ⊛ z 2091 ⊝ z 546 ⊛ z 2101 ⊝ z 954 ⊛ z 1577 ⊝ z 958 ⊛ z 1487 ⊝ z 961 ⊛ z 1623),
(2138, z 964 ⊛ z 2134 ⊹ z 979 ⊛ z 2103 ⊝ z 965 ⊛ z 2121 ⊝ z 978 ⊛ z 2137),
(2139, z 907 ⊛ z 1484 ⊝ z 539 ⊛ z 2064 ⊝ z 542 ⊛ z 2050 ⊝ z 545 ⊛ z 2077 ⊝ z 902 ⊛ z 1541 ⊝ z 906
    ⊛ z 1188)]

/-- _mooreriderlean2012.py:3607-3740 -/
def part27 : List (ℕ × E) := [
(2140, z 965 ⊛ z 2106 ⊹ z 973 ⊛ z 2137 ⊝ z 960 ⊛ z 2134 ⊝ z 979 ⊛ z 2107),
(2141, z 983 ⊛ z 2122 ⊹ z 1003 ⊛ z 2078 ⊝ z 905 ⊛ z 2138 ⊝ z 982 ⊛ z 2140 ⊝ z 1004 ⊛ z 2139),
(2142, z 4 ⊛ z 6 ⊛ q5p ⊝ z 3 ⊛ z 6 ⊛ z 1578 ⊝ z 3 ⊛ z 5 ⊛ q4p),
(2143, neg (z 4) ⊛ z 6 ⊛ z 1578 ⊝ z 3 ⊛ z 6 ⊛ q5p ⊝ z 4 ⊛ z 5 ⊛ q4p),
(2144, z 5 ⊛ pow (z 3) 2 ⊛ q4p ⊹ z 5 ⊛ pow (z 4) 2 ⊛ q4p ⊹ z 3 ⊛ z 269 ⊹ z 3 ⊛ z 2142 ⊹ z 4 ⊛ z
    2143 ⊝ z 3 ⊛ z 32 ⊛ q4p ⊝ z 4 ⊛ z 31 ⊛ q4p ⊝ z 4 ⊛ z 268),
(2145, z 3 ⊛ z 5 ⊛ z 1578 ⊝ z 3 ⊛ z 6 ⊛ q4p ⊝ z 4 ⊛ z 5 ⊛ q5p),
(2146, q4p ⊛ z 2144 ⊝ z 43 ⊛ z 1543 ⊛ z 271 ⊝ z 43 ⊛ q3p ⊛ z 2145),
(2147, z 4 ⊛ z 5 ⊛ z 1578 ⊹ z 3 ⊛ z 5 ⊛ q5p ⊝ z 4 ⊛ z 6 ⊛ q4p),
(2148, z 6 ⊛ pow (z 3) 2 ⊛ q4p ⊹ z 6 ⊛ pow (z 4) 2 ⊛ q4p ⊹ z 3 ⊛ z 273 ⊹ z 3 ⊛ z 2145 ⊹ z 4 ⊛ z
    2147 ⊝ z 3 ⊛ z 42 ⊛ q4p ⊝ z 4 ⊛ z 41 ⊛ q4p ⊝ z 4 ⊛ z 271),
(2149, z 4 ⊛ z 32 ⊛ q4p ⊹ z 3 ⊛ z 2143 ⊝ z 3 ⊛ z 31 ⊛ q4p ⊝ z 3 ⊛ z 268 ⊝ z 4 ⊛ z 269 ⊝ z 4 ⊛ z
    2142),
(2150, z 1578 ⊛ z 278 ⊹ q4p ⊛ z 2148 ⊹ q5p ⊛ z 2149 ⊹ z 43 ⊛ z 1543 ⊛ z 268 ⊹ z 43 ⊛ q3p ⊛ z 2142),
(2151, z 47 ⊛ z 1578 ⊹ z 51 ⊛ z 1543 ⊹ z 1126 ⊛ q4p ⊹ n 2 ⊛ z 1152 ⊛ q5p ⊹ z 3 ⊛ z 43 ⊛ q3p),
(2152, z 48 ⊛ q4p ⊹ z 4 ⊛ z 6 ⊛ z 43 ⊛ q3p ⊝ z 50 ⊛ z 1543),
(2153, z 48 ⊛ z 1578 ⊹ z 52 ⊛ z 1543 ⊹ z 1061 ⊛ q4p ⊹ z 1156 ⊛ q5p ⊝ z 4 ⊛ z 5 ⊛ z 43 ⊛ q3p),
(2154, ic31 ⊛ z 2152 ⊹ ic33 ⊛ z 2153),
(2155, z 266 ⊛ z 2154 ⊹ z 758 ⊛ z 2151 ⊝ z 759 ⊛ z 2153 ⊝ ic22 ⊛ z 267 ⊛ z 2151),
(2156, z 31 ⊛ z 2145 ⊹ z 42 ⊛ z 2143 ⊹ z 3 ⊛ z 5 ⊛ z 271 ⊹ z 4 ⊛ z 5 ⊛ z 273 ⊝ z 32 ⊛ z 2147 ⊝ z
    41 ⊛ z 2142 ⊝ z 3 ⊛ z 6 ⊛ z 268 ⊝ z 4 ⊛ z 6 ⊛ z 269),
(2157, n 2 ⊛ z 41 ⊛ z 2147 ⊹ n 2 ⊛ z 42 ⊛ z 2145 ⊹ n 2 ⊛ z 3 ⊛ z 6 ⊛ z 273 ⊝ n 2 ⊛ z 5 ⊛ z 6 ⊛ z
    1578 ⊝ n 2 ⊛ z 4 ⊛ z 6 ⊛ z 271),
(2158, z 1543 ⊛ z 276 ⊹ z 1578 ⊛ z 275 ⊹ q4p ⊛ z 2156 ⊹ q5p ⊛ z 2157 ⊝ z 4 ⊛ z 43 ⊛ q3p ⊛ q4p),
(2159, ic11 ⊛ z 2152 ⊹ ic31 ⊛ z 2153),
(2160, z 267 ⊛ z 2159 ⊹ z 757 ⊛ z 2153 ⊝ z 265 ⊛ z 2154 ⊝ z 758 ⊛ z 2152),
(2161, z 64 ⊛ z 1543 ⊹ z 65 ⊛ z 1578 ⊹ z 1063 ⊛ q4p ⊹ z 7 ⊛ z 1156 ⊛ q5p ⊝ z 43 ⊛ z 1142 ⊛ q3p),
(2162, z 61 ⊛ z 1543 ⊹ z 1062 ⊛ q4p ⊹ z 43 ⊛ z 1141 ⊛ q3p ⊝ z 62 ⊛ z 1578 ⊝ z 8 ⊛ z 1156 ⊛ q5p),
(2163, z 781 ⊛ z 2161 ⊹ id11 ⊛ z 283 ⊛ z 2162 ⊝ z 783 ⊛ z 2162 ⊝ id11 ⊛ z 281 ⊛ z 2161),
(2164, z 759 ⊛ z 2152 ⊹ ic22 ⊛ z 265 ⊛ z 2151 ⊝ z 266 ⊛ z 2159 ⊝ z 757 ⊛ z 2151),
(2165, z 7 ⊛ z 2144 ⊝ z 7 ⊛ z 1061 ⊛ q6p ⊝ z 8 ⊛ z 48 ⊛ q6p ⊝ z 8 ⊛ z 2148),
(2166, z 4 ⊛ z 5 ⊛ z 7 ⊛ q6p ⊝ z 4 ⊛ z 6 ⊛ z 8 ⊛ q6p ⊝ z 7 ⊛ z 2145 ⊝ z 8 ⊛ z 2142),
(2167, z 7 ⊛ z 1156 ⊛ q6p ⊹ z 8 ⊛ z 2149),
(2168, q4p ⊛ z 2165 ⊹ z 43 ⊛ z 1543 ⊛ z 285 ⊹ z 43 ⊛ q3p ⊛ z 2166 ⊝ z 1578 ⊛ z 286 ⊝ q5p ⊛ z 2167),
(2169, z 783 ⊛ z 2151 ⊹ id11 ⊛ z 282 ⊛ z 2161 ⊝ z 782 ⊛ z 2161 ⊝ id22 ⊛ z 283 ⊛ z 2151),
(2170, z 7 ⊛ z 48 ⊛ q6p ⊹ z 7 ⊛ z 2148 ⊹ z 8 ⊛ z 2144 ⊝ z 8 ⊛ z 1061 ⊛ q6p),
(2171, z 7 ⊛ z 2149 ⊝ z 8 ⊛ z 1156 ⊛ q6p),
(2172, z 4 ⊛ z 5 ⊛ z 8 ⊛ q6p ⊹ z 4 ⊛ z 6 ⊛ z 7 ⊛ q6p ⊹ z 7 ⊛ z 2142 ⊝ z 8 ⊛ z 2145),
(2173, z 1578 ⊛ z 290 ⊹ q4p ⊛ z 2170 ⊹ q5p ⊛ z 2171 ⊹ z 43 ⊛ z 1543 ⊛ z 289 ⊹ z 43 ⊛ q3p ⊛ z 2172),
(2174, z 782 ⊛ z 2162 ⊹ id22 ⊛ z 281 ⊛ z 2151 ⊝ z 781 ⊛ z 2151 ⊝ id11 ⊛ z 282 ⊛ z 2162),
(2175, z 4 ⊛ z 10 ⊛ q7p ⊹ z 4 ⊛ z 26 ⊛ q4p ⊝ z 4 ⊛ z 5 ⊛ z 10 ⊛ z 1578 ⊝ z 3 ⊛ z 9 ⊛ q4p ⊝ z 3 ⊛ z
    295),
(2176, z 3 ⊛ z 10 ⊛ q7p ⊹ z 3 ⊛ z 26 ⊛ q4p ⊹ z 4 ⊛ z 9 ⊛ q4p ⊹ z 4 ⊛ z 295 ⊝ z 3 ⊛ z 5 ⊛ z 10 ⊛ z
    1578),
(2177, z 29 ⊛ z 2142 ⊹ z 32 ⊛ z 2175 ⊹ z 69 ⊛ z 268 ⊝ z 31 ⊛ z 2176 ⊝ z 69 ⊛ z 2143 ⊝ z 1133 ⊛ z
    269 ⊝ z 3 ⊛ z 5 ⊛ z 301 ⊝ z 4 ⊛ z 5 ⊛ z 300),
(2178, z 3 ⊛ z 296 ⊝ z 4 ⊛ z 6 ⊛ z 10 ⊛ z 1578 ⊝ z 4 ⊛ z 25 ⊛ q4p),
(2179, neg (z 3) ⊛ z 6 ⊛ z 10 ⊛ z 1578 ⊝ z 3 ⊛ z 25 ⊛ q4p ⊝ z 4 ⊛ z 296),
(2180, z 5 ⊛ z 26 ⊛ z 1578 ⊹ z 5 ⊛ z 6 ⊛ z 10 ⊛ z 1578 ⊹ z 31 ⊛ z 2178 ⊹ z 32 ⊛ z 2179 ⊹ z 71 ⊛ z
    2143 ⊹ z 72 ⊛ z 2142 ⊹ z 3 ⊛ z 5 ⊛ z 297 ⊹ z 3 ⊛ z 25 ⊛ z 269 ⊝ z 4 ⊛ z 5 ⊛ z 298 ⊝ z 4 ⊛ z 25
    ⊛ z 268),
(2181, z 3 ⊛ z 5 ⊛ z 9 ⊛ z 1578 ⊹ z 4 ⊛ z 10 ⊛ q4p ⊝ z 3 ⊛ z 9 ⊛ q7p ⊝ z 3 ⊛ z 24 ⊛ q4p ⊝ z 4 ⊛ z
    303),
(2182, z 3 ⊛ z 10 ⊛ q4p ⊹ z 4 ⊛ z 9 ⊛ q7p ⊹ z 4 ⊛ z 24 ⊛ q4p ⊝ z 4 ⊛ z 5 ⊛ z 9 ⊛ z 1578 ⊝ z 3 ⊛ z
    303),
(2183, z 9 ⊛ pow (z 6) 2 ⊛ z 1578 ⊹ z 32 ⊛ z 2181 ⊹ z 66 ⊛ z 2142 ⊹ z 70 ⊛ z 268 ⊝ z 5 ⊛ z 23 ⊛ z
    1578 ⊝ z 28 ⊛ z 269 ⊝ z 31 ⊛ z 2182 ⊝ z 70 ⊛ z 2143 ⊝ z 3 ⊛ z 5 ⊛ z 306 ⊝ z 4 ⊛ z 5 ⊛ z 304),
(2184, z 3 ⊛ z 9 ⊛ q7p ⊹ z 3 ⊛ z 24 ⊛ q4p ⊹ z 4 ⊛ z 303 ⊝ z 3 ⊛ z 5 ⊛ z 9 ⊛ z 1578 ⊝ z 4 ⊛ z 10 ⊛
    q4p),
(2185, z 1578 ⊛ z 299 ⊹ q4p ⊛ z 2177 ⊹ q5p ⊛ z 2180 ⊹ q7p ⊛ z 2183 ⊹ z 43 ⊛ z 1543 ⊛ z 308 ⊹ z 43
    ⊛ q3p ⊛ z 2184),
(2186, z 3 ⊛ z 5 ⊛ z 10 ⊛ z 1578 ⊝ z 3 ⊛ z 10 ⊛ q7p ⊝ z 3 ⊛ z 26 ⊛ q4p ⊝ z 4 ⊛ z 9 ⊛ q4p ⊝ z 4 ⊛ z
    295),
(2187, z 4 ⊛ z 5 ⊛ z 9 ⊛ z 1578 ⊹ z 3 ⊛ z 303 ⊝ z 3 ⊛ z 10 ⊛ q4p ⊝ z 4 ⊛ z 9 ⊛ q7p ⊝ z 4 ⊛ z 24 ⊛
    q4p),
(2188, z 27 ⊛ z 2186 ⊹ z 29 ⊛ z 310 ⊹ z 29 ⊛ z 2181 ⊹ z 30 ⊛ z 2187 ⊹ z 66 ⊛ z 313 ⊹ z 66 ⊛ z 2175
    ⊹ z 69 ⊛ z 304 ⊹ z 70 ⊛ z 300),
(2189, z 3 ⊛ z 305 ⊝ z 4 ⊛ z 6 ⊛ z 9 ⊛ z 1578 ⊝ z 4 ⊛ z 23 ⊛ q4p),
(2190, neg (z 3) ⊛ z 6 ⊛ z 9 ⊛ z 1578 ⊝ z 3 ⊛ z 23 ⊛ q4p ⊝ z 4 ⊛ z 305),
(2191, z 5 ⊛ z 9 ⊛ z 25 ⊛ z 1578 ⊹ z 29 ⊛ z 2189 ⊹ z 67 ⊛ z 2175 ⊹ z 69 ⊛ z 315 ⊹ z 3 ⊛ z 23 ⊛ z
    300 ⊹ z 4 ⊛ z 23 ⊛ z 313 ⊝ z 6 ⊛ z 10 ⊛ z 24 ⊛ z 1578 ⊝ z 29 ⊛ z 316 ⊝ z 30 ⊛ z 2190 ⊝ z 68 ⊛
    z 2186),
(2192, n 2 ⊛ z 29 ⊛ z 313 ⊹ n 2 ⊛ z 29 ⊛ z 2175 ⊹ n 2 ⊛ z 30 ⊛ z 2186 ⊹ n 2 ⊛ z 69 ⊛ z 300 ⊝ n 2 ⊛
    z 6 ⊛ z 10 ⊛ z 25 ⊛ z 1578),
(2193, z 1578 ⊛ z 317 ⊹ q4p ⊛ z 2188 ⊹ q5p ⊛ z 2191 ⊹ q7p ⊛ z 2192 ⊹ z 43 ⊛ z 1543 ⊛ z 268 ⊹ z 43
    ⊛ q3p ⊛ z 2142),
(2194, z 76 ⊛ z 1578 ⊹ z 82 ⊛ z 1543 ⊹ z 1127 ⊛ q4p ⊹ z 1153 ⊛ q5p ⊹ z 29 ⊛ z 43 ⊛ q3p),
(2195, z 73 ⊛ z 1578 ⊹ z 81 ⊛ z 1543 ⊹ z 1134 ⊛ q4p ⊹ z 1160 ⊛ q5p ⊹ z 1190 ⊛ q7p ⊹ z 27 ⊛ z 43 ⊛
    q3p),
(2196, z 52 ⊛ z 1543 ⊹ z 78 ⊛ z 1578 ⊹ z 1132 ⊛ q4p ⊹ z 1159 ⊛ q5p ⊹ n 2 ⊛ z 29 ⊛ (z 30 ⊹ z 69) ⊛
    q7p ⊝ z 4 ⊛ z 5 ⊛ z 43 ⊛ q3p),
(2197, ie31 ⊛ z 2195 ⊹ ie33 ⊛ z 2196),
(2198, z 293 ⊛ z 2197 ⊹ z 801 ⊛ z 2194 ⊝ z 802 ⊛ z 2196 ⊝ ie22 ⊛ z 294 ⊛ z 2194),
(2199, z 4 ⊛ z 5 ⊛ z 310 ⊝ z 27 ⊛ z 269 ⊝ z 27 ⊛ z 2142 ⊝ z 28 ⊛ z 2143 ⊝ z 31 ⊛ z 2184 ⊝ z 32 ⊛ z
    2187 ⊝ z 66 ⊛ z 268 ⊝ z 3 ⊛ z 5 ⊛ z 308),
(2200, z 27 ⊛ z 2147 ⊹ z 41 ⊛ z 2187 ⊹ z 66 ⊛ z 273 ⊹ z 3 ⊛ z 6 ⊛ z 310 ⊹ z 4 ⊛ z 6 ⊛ z 308 ⊝ z 6
    ⊛ z 23 ⊛ z 1578 ⊝ z 5 ⊛ z 6 ⊛ z 9 ⊛ z 1578 ⊝ z 27 ⊛ z 271 ⊝ z 28 ⊛ z 2145 ⊝ z 42 ⊛ z 2184),
(2201, z 1578 ⊛ z 311 ⊹ q4p ⊛ z 2199 ⊹ q5p ⊛ z 2200 ⊹ z 43 ⊛ z 1543 ⊛ z 313 ⊹ z 43 ⊛ q3p ⊛ z 2186),
(2202, ie11 ⊛ z 2195 ⊹ ie31 ⊛ z 2196),
(2203, z 294 ⊛ z 2202 ⊹ z 800 ⊛ z 2196 ⊝ z 292 ⊛ z 2197 ⊝ z 801 ⊛ z 2195),
(2204, z 94 ⊛ z 1543 ⊹ z 95 ⊛ z 1578 ⊹ z 1137 ⊛ q4p ⊹ z 1163 ⊛ q5p ⊹ z 1192 ⊛ q7p ⊹ z 43 ⊛ z 1077
    ⊛ q3p),
(2205, z 90 ⊛ z 1543 ⊹ z 91 ⊛ z 1578 ⊹ z 1138 ⊛ q4p ⊹ z 1164 ⊛ q5p ⊹ z 1193 ⊛ q7p ⊹ z 43 ⊛ z 1078
    ⊛ q3p),
(2206, z 830 ⊛ z 2204 ⊹ if11 ⊛ z 323 ⊛ z 2205 ⊝ z 832 ⊛ z 2205 ⊝ if11 ⊛ z 321 ⊛ z 2204),
(2207, z 802 ⊛ z 2195 ⊹ ie22 ⊛ z 292 ⊛ z 2194 ⊝ z 293 ⊛ z 2202 ⊝ z 800 ⊛ z 2194),
(2208, z 11 ⊛ z 2177 ⊝ z 11 ⊛ z 80 ⊛ z 1625 ⊝ z 12 ⊛ z 74 ⊛ z 1625 ⊝ z 11 ⊛ z 1132 ⊛ q8p ⊝ z 12 ⊛
    z 1134 ⊛ q8p ⊝ z 12 ⊛ z 2188),
(2209, z 11 ⊛ z 2180 ⊝ z 11 ⊛ z 78 ⊛ z 1625 ⊝ z 12 ⊛ z 73 ⊛ z 1625 ⊝ z 11 ⊛ z 1159 ⊛ q8p ⊝ z 12 ⊛
    z 1160 ⊛ q8p ⊝ z 12 ⊛ z 2191),
(2210, z 11 ⊛ z 2183 ⊝ z 11 ⊛ z 79 ⊛ z 1625 ⊝ z 12 ⊛ z 75 ⊛ z 1625 ⊝ z 12 ⊛ z 1190 ⊛ q8p ⊝ n 2 ⊛ z
    11 ⊛ z 29 ⊛ (z 30 ⊹ z 69) ⊛ q8p ⊝ z 12 ⊛ z 2192),
(2211, z 4 ⊛ z 5 ⊛ z 11 ⊛ q8p ⊹ z 11 ⊛ z 2184 ⊝ z 11 ⊛ z 32 ⊛ z 1625 ⊝ z 12 ⊛ z 28 ⊛ z 1625 ⊝ z 12
    ⊛ z 27 ⊛ q8p ⊝ z 12 ⊛ z 2142),
(2212, z 1578 ⊛ z 325 ⊹ q4p ⊛ z 2208 ⊹ q5p ⊛ z 2209 ⊹ q7p ⊛ z 2210 ⊹ z 43 ⊛ z 1543 ⊛ z 324 ⊹ z 43
    ⊛ q3p ⊛ z 2211),
(2213, z 76 ⊛ z 1578 ⊹ z 82 ⊛ z 1543 ⊹ z 83 ⊛ z 1625 ⊹ z 1127 ⊛ q4p ⊹ z 1153 ⊛ q5p ⊹ z 29 ⊛ z 43 ⊛
    q3p),
(2214, z 832 ⊛ z 2213 ⊹ if11 ⊛ z 322 ⊛ z 2204 ⊝ z 831 ⊛ z 2204 ⊝ if22 ⊛ z 323 ⊛ z 2213)]

/-- _mooreriderlean2012.py:3741-3868 -/
def part28 : List (ℕ × E) := [
(2215, z 11 ⊛ z 74 ⊛ z 1625 ⊹ z 11 ⊛ z 1134 ⊛ q8p ⊹ z 11 ⊛ z 2188 ⊹ z 12 ⊛ z 2177 ⊝ z 12 ⊛ z 80 ⊛
    z 1625 ⊝ z 12 ⊛ z 1132 ⊛ q8p),
(2216, z 11 ⊛ z 73 ⊛ z 1625 ⊹ z 11 ⊛ z 1160 ⊛ q8p ⊹ z 11 ⊛ z 2191 ⊹ z 12 ⊛ z 2180 ⊝ z 12 ⊛ z 78 ⊛
    z 1625 ⊝ z 12 ⊛ z 1159 ⊛ q8p),
(2217, z 11 ⊛ z 75 ⊛ z 1625 ⊹ z 11 ⊛ z 1190 ⊛ q8p ⊹ z 11 ⊛ z 2192 ⊹ z 12 ⊛ z 2183 ⊝ z 12 ⊛ z 79 ⊛
    z 1625 ⊝ n 2 ⊛ z 12 ⊛ z 29 ⊛ (z 30 ⊹ z 69) ⊛ q8p),
(2218, z 11 ⊛ z 28 ⊛ z 1625 ⊹ z 11 ⊛ z 27 ⊛ q8p ⊹ z 4 ⊛ z 5 ⊛ z 12 ⊛ q8p ⊹ z 11 ⊛ z 2142 ⊹ z 12 ⊛
    z 2184 ⊝ z 12 ⊛ z 32 ⊛ z 1625),
(2219, z 1578 ⊛ z 330 ⊹ q4p ⊛ z 2215 ⊹ q5p ⊛ z 2216 ⊹ q7p ⊛ z 2217 ⊹ z 43 ⊛ z 1543 ⊛ z 329 ⊹ z 43
    ⊛ q3p ⊛ z 2218),
(2220, z 831 ⊛ z 2205 ⊹ if22 ⊛ z 321 ⊛ z 2213 ⊝ z 830 ⊛ z 2213 ⊝ if11 ⊛ z 322 ⊛ z 2205),
(2221, z 13 ⊛ z 48 ⊹ z 14 ⊛ z 1061),
(2222, z 13 ⊛ z 2144 ⊹ z 14 ⊛ z 2148),
(2223, z 14 ⊛ z 2142 ⊝ z 13 ⊛ z 2145),
(2224, q4p ⊛ z 2222 ⊹ z 14 ⊛ z 1578 ⊛ z 278 ⊹ z 14 ⊛ q5p ⊛ z 2149 ⊹ z 43 ⊛ z 1543 ⊛ z 341 ⊹ z 43 ⊛
    q3p ⊛ z 2223),
(2225, z 20 ⊛ z 2148 ⊹ z 48 ⊛ z 337 ⊝ z 17 ⊛ z 1126 ⊛ q9p ⊝ z 15 ⊛ z 2156 ⊝ z 18 ⊛ z 2144 ⊝ z 1061
    ⊛ z 338),
(2226, z 20 ⊛ z 2149 ⊝ n 2 ⊛ z 17 ⊛ z 1152 ⊛ q9p ⊝ z 15 ⊛ z 2157 ⊝ z 1156 ⊛ z 338),
(2227, z 4 ⊛ z 15 ⊛ q4p ⊹ z 18 ⊛ z 2145 ⊹ z 20 ⊛ z 2142 ⊹ z 4 ⊛ z 5 ⊛ z 338 ⊹ z 4 ⊛ z 6 ⊛ z 337 ⊝
    z 3 ⊛ z 17 ⊛ q9p),
(2228, z 1578 ⊛ z 349 ⊹ q4p ⊛ z 2225 ⊹ q5p ⊛ z 2226 ⊹ z 43 ⊛ z 1543 ⊛ z 348 ⊹ z 43 ⊛ q3p ⊛ z 2227),
(2229, z 17 ⊛ z 1126 ⊹ z 19 ⊛ z 1061 ⊝ z 16 ⊛ z 48),
(2230, z 112 ⊛ z 1543 ⊹ z 114 ⊛ z 1578 ⊹ z 2052 ⊛ q5p ⊹ z 2229 ⊛ q4p ⊹ z 43 ⊛ z 2067 ⊛ q3p),
(2231, z 110 ⊛ z 1543 ⊹ z 111 ⊛ z 1578 ⊹ z 2221 ⊛ q4p ⊹ z 14 ⊛ z 1156 ⊛ q5p ⊹ z 43 ⊛ z 2065 ⊛ q3p),
(2232, z 20 ⊛ z 1061 ⊝ z 15 ⊛ z 1126 ⊝ z 18 ⊛ z 48),
(2233, z 115 ⊛ z 1543 ⊹ z 116 ⊛ z 1578 ⊹ z 2051 ⊛ q5p ⊹ z 2232 ⊛ q4p ⊹ z 43 ⊛ z 2066 ⊛ q3p),
(2234, ig31 ⊛ z 2231 ⊹ ig33 ⊛ z 2233),
(2235, z 335 ⊛ z 2234 ⊹ z 852 ⊛ z 2230 ⊝ z 853 ⊛ z 2233 ⊝ ig22 ⊛ z 336 ⊛ z 2230),
(2236, z 20 ⊛ z 1061 ⊛ q9p ⊹ z 17 ⊛ z 2156 ⊹ z 19 ⊛ z 2148 ⊝ z 15 ⊛ z 1126 ⊛ q9p ⊝ z 18 ⊛ z 48 ⊛
    q9p ⊝ z 16 ⊛ z 2144),
(2237, z 20 ⊛ z 1156 ⊛ q9p ⊹ z 17 ⊛ z 2157 ⊹ z 19 ⊛ z 2149 ⊝ n 2 ⊛ z 15 ⊛ z 1152 ⊛ q9p),
(2238, z 16 ⊛ z 2145 ⊹ z 19 ⊛ z 2142 ⊝ z 3 ⊛ z 15 ⊛ q9p ⊝ z 4 ⊛ z 17 ⊛ q4p ⊝ z 4 ⊛ z 5 ⊛ z 20 ⊛
    q9p ⊝ z 4 ⊛ z 6 ⊛ z 18 ⊛ q9p),
(2239, z 1578 ⊛ z 346 ⊹ q4p ⊛ z 2236 ⊹ q5p ⊛ z 2237 ⊹ z 43 ⊛ z 1543 ⊛ z 344 ⊹ z 43 ⊛ q3p ⊛ z 2238),
(2240, ig11 ⊛ z 2231 ⊹ ig31 ⊛ z 2233),
(2241, z 336 ⊛ z 2240 ⊹ z 851 ⊛ z 2233 ⊝ z 334 ⊛ z 2234 ⊝ z 852 ⊛ z 2231),
(2242, z 853 ⊛ z 2231 ⊹ ig22 ⊛ z 334 ⊛ z 2230 ⊝ z 335 ⊛ z 2240 ⊝ z 851 ⊛ z 2230),
(2243, z 2057 ⊛ z 1126),
(2244, rr ⊛ z 4 ⊛ z 43 ⊛ q4p),
(2245, z 1543 ⊛ z 354 ⊝ q3p ⊛ z 2244),
(2246, z 4 ⊛ z 353 ⊛ z 356 ⊝ z 2245 ⊝ z 3 ⊛ z 43 ⊛ z 1543 ⊛ z 353),
(2247, z 118 ⊛ z 1543 ⊹ rr ⊛ z 3 ⊛ z 43 ⊛ q3p),
(2248, z 356 ⊛ z 2247 ⊹ z 43 ⊛ z 1543 ⊛ z 352),
(2249, z 5 ⊛ z 2246 ⊝ z 41 ⊛ z 2248 ⊝ z 3 ⊛ z 6 ⊛ z 358),
(2250, neg (z 21) ⊛ z 1061 ⊝ z 22 ⊛ z 48),
(2251, z 2249 ⊹ z 22 ⊛ z 2158 ⊹ (z 173 ⊛ q4p ⊹ z 174 ⊛ q5p ⊹ z 175 ⊛ q3p) ⊛ z 2151 ⊹ (z 174 ⊛ z
    1578 ⊹ z 175 ⊛ z 1543 ⊹ z 21 ⊛ z 1126 ⊛ q4p ⊹ n 2 ⊛ z 21 ⊛ z 1152 ⊛ q5p ⊹ z 21 ⊛ z 3 ⊛ z 43 ⊛
    q3p) ⊛ z 266 ⊝ (z 170 ⊛ q4p ⊹ z 171 ⊛ q3p ⊝ z 172 ⊛ q5p) ⊛ z 2153 ⊝ (z 171 ⊛ z 1543 ⊹ z 2068 ⊛
    q3p ⊹ z 2250 ⊛ q4p ⊝ z 172 ⊛ z 1578 ⊝ z 21 ⊛ z 1156 ⊛ q5p) ⊛ z 267),
(2252, z 6 ⊛ z 2246 ⊹ z 31 ⊛ z 2248 ⊹ z 3 ⊛ z 5 ⊛ z 358),
(2253, z 2252 ⊹ z 21 ⊛ z 2158 ⊹ (z 170 ⊛ q4p ⊹ z 171 ⊛ q3p ⊝ z 172 ⊛ q5p) ⊛ z 2152 ⊹ (z 171 ⊛ z
    1543 ⊹ z 2068 ⊛ q3p ⊹ z 2250 ⊛ q4p ⊝ z 172 ⊛ z 1578 ⊝ z 21 ⊛ z 1156 ⊛ q5p) ⊛ z 265 ⊝ (z 176 ⊛
    q4p ⊹ z 177 ⊛ q5p ⊹ z 178 ⊛ q3p) ⊛ z 2151 ⊝ (z 177 ⊛ z 1578 ⊹ z 178 ⊛ z 1543 ⊹ z 22 ⊛ z 1126 ⊛
    q4p ⊹ n 2 ⊛ z 22 ⊛ z 1152 ⊛ q5p ⊹ z 22 ⊛ z 3 ⊛ z 43 ⊛ q3p) ⊛ z 266),
(2254, z 13 ⊛ z 2251 ⊹ z 14 ⊛ z 2253),
(2255, l5 ⊛ z 2232 ⊝ l6 ⊛ z 2221),
(2256, z 2254 ⊹ l6 ⊛ z 2239 ⊝ (z 201 ⊛ q9p ⊹ z 202 ⊛ q3p ⊹ z 203 ⊛ q4p ⊹ z 204 ⊛ q5p) ⊛ z 2230 ⊝
    (z 197 ⊛ q3p ⊹ z 198 ⊛ q5p ⊹ z 199 ⊛ q4p ⊝ z 200 ⊛ q9p) ⊛ z 2233 ⊝ (z 197 ⊛ z 1543 ⊹ z 198 ⊛ z
    1578 ⊹ z 2055 ⊛ q5p ⊹ z 2072 ⊛ q3p ⊹ z 2255 ⊛ q4p) ⊛ z 336 ⊝ (z 202 ⊛ z 1543 ⊹ z 204 ⊛ z 1578
    ⊹ l5 ⊛ z 2052 ⊛ q5p ⊹ l5 ⊛ z 2229 ⊛ q4p ⊹ l5 ⊛ z 43 ⊛ z 2067 ⊛ q3p) ⊛ z 335),
(2257, z 17 ⊛ z 2250 ⊹ z 21 ⊛ z 19 ⊛ z 1126 ⊝ z 22 ⊛ z 16 ⊛ z 1126),
(2258, neg (z 21) ⊛ z 2150 ⊝ z 22 ⊛ z 2146),
(2259, z 3 ⊛ z 2248 ⊝ z 4 ⊛ z 358),
(2260, z 2258 ⊹ (z 176 ⊛ q4p ⊹ z 177 ⊛ q5p ⊹ z 178 ⊛ q3p) ⊛ z 2153 ⊹ (z 177 ⊛ z 1578 ⊹ z 178 ⊛ z
    1543 ⊹ z 22 ⊛ z 1126 ⊛ q4p ⊹ n 2 ⊛ z 22 ⊛ z 1152 ⊛ q5p ⊹ z 22 ⊛ z 3 ⊛ z 43 ⊛ q3p) ⊛ z 267 ⊝ z
    2259 ⊝ (z 173 ⊛ q4p ⊹ z 174 ⊛ q5p ⊹ z 175 ⊛ q3p) ⊛ z 2152 ⊝ (z 174 ⊛ z 1578 ⊹ z 175 ⊛ z 1543 ⊹
    z 21 ⊛ z 1126 ⊛ q4p ⊹ n 2 ⊛ z 21 ⊛ z 1152 ⊛ q5p ⊹ z 21 ⊛ z 3 ⊛ z 43 ⊛ q3p) ⊛ z 265),
(2261, z 17 ⊛ z 2260 ⊹ z 19 ⊛ z 2253 ⊝ z 16 ⊛ z 2251),
(2262, l5 ⊛ z 2228 ⊝ l6 ⊛ z 2224),
(2263, z 2261 ⊹ z 2262 ⊹ (z 201 ⊛ q9p ⊹ z 202 ⊛ q3p ⊹ z 203 ⊛ q4p ⊹ z 204 ⊛ q5p) ⊛ z 2231 ⊹ (z 205
    ⊛ q9p ⊹ z 206 ⊛ q3p ⊹ z 207 ⊛ q4p ⊹ z 208 ⊛ q5p) ⊛ z 2233 ⊹ (z 202 ⊛ z 1543 ⊹ z 204 ⊛ z 1578 ⊹
    l5 ⊛ z 2052 ⊛ q5p ⊹ l5 ⊛ z 2229 ⊛ q4p ⊹ l5 ⊛ z 43 ⊛ z 2067 ⊛ q3p) ⊛ z 334 ⊹ (z 206 ⊛ z 1543 ⊹
    z 208 ⊛ z 1578 ⊹ l6 ⊛ z 2052 ⊛ q5p ⊹ l6 ⊛ z 2229 ⊛ q4p ⊹ l6 ⊛ z 43 ⊛ z 2067 ⊛ q3p) ⊛ z 336),
(2264, z 21 ⊛ z 20 ⊛ z 1126 ⊝ z 15 ⊛ z 2250 ⊝ z 22 ⊛ z 18 ⊛ z 1126),
(2265, z 20 ⊛ z 2253 ⊝ z 15 ⊛ z 2260 ⊝ z 18 ⊛ z 2251),
(2266, z 2265 ⊹ (z 197 ⊛ q3p ⊹ z 198 ⊛ q5p ⊹ z 199 ⊛ q4p ⊝ z 200 ⊛ q9p) ⊛ z 2231 ⊹ (z 197 ⊛ z 1543
    ⊹ z 198 ⊛ z 1578 ⊹ z 2055 ⊛ q5p ⊹ z 2072 ⊛ q3p ⊹ z 2255 ⊛ q4p) ⊛ z 334 ⊝ l5 ⊛ z 2239 ⊝ (z 205
    ⊛ q9p ⊹ z 206 ⊛ q3p ⊹ z 207 ⊛ q4p ⊹ z 208 ⊛ q5p) ⊛ z 2230 ⊝ (z 206 ⊛ z 1543 ⊹ z 208 ⊛ z 1578 ⊹
    l6 ⊛ z 2052 ⊛ q5p ⊹ l6 ⊛ z 2229 ⊛ q4p ⊹ l6 ⊛ z 43 ⊛ z 2067 ⊛ q3p) ⊛ z 335),
(2267, l1 ⊛ z 1061 ⊝ l2 ⊛ z 48),
(2268, z 2252 ⊹ (z 128 ⊛ q5p ⊹ z 129 ⊛ q4p ⊹ z 130 ⊛ q3p) ⊛ z 2152 ⊝ l1 ⊛ z 2158 ⊝ (z 134 ⊛ q4p ⊹
    z 135 ⊛ q5p ⊹ z 136 ⊛ q3p) ⊛ z 2151 ⊝ (z 135 ⊛ z 1578 ⊹ z 136 ⊛ z 1543 ⊹ l2 ⊛ z 1126 ⊛ q4p ⊹ n
    2 ⊛ l2 ⊛ z 1152 ⊛ q5p ⊹ l2 ⊛ z 3 ⊛ z 43 ⊛ q3p) ⊛ z 266 ⊝ (z 2083 ⊛ q3p ⊝ z 128 ⊛ z 1578 ⊝ z
    130 ⊛ z 1543 ⊝ z 2267 ⊛ q4p ⊝ l1 ⊛ z 1156 ⊛ q5p) ⊛ z 265),
(2269, z 2249 ⊹ l2 ⊛ z 2158 ⊹ (z 2083 ⊛ q3p ⊝ z 128 ⊛ z 1578 ⊝ z 130 ⊛ z 1543 ⊝ z 2267 ⊛ q4p ⊝ l1
    ⊛ z 1156 ⊛ q5p) ⊛ z 267 ⊝ (z 128 ⊛ q5p ⊹ z 129 ⊛ q4p ⊹ z 130 ⊛ q3p) ⊛ z 2153 ⊝ (z 131 ⊛ q4p ⊹
    z 132 ⊛ q5p ⊹ z 133 ⊛ q3p) ⊛ z 2151 ⊝ (z 132 ⊛ z 1578 ⊹ z 133 ⊛ z 1543 ⊹ l1 ⊛ z 1126 ⊛ q4p ⊹ n
    2 ⊛ l1 ⊛ z 1152 ⊛ q5p ⊹ l1 ⊛ z 3 ⊛ z 43 ⊛ q3p) ⊛ z 266),
(2270, l1 ⊛ z 2150 ⊝ l2 ⊛ z 2146),
(2271, z 2270 ⊹ (z 131 ⊛ q4p ⊹ z 132 ⊛ q5p ⊹ z 133 ⊛ q3p) ⊛ z 2152 ⊹ (z 134 ⊛ q4p ⊹ z 135 ⊛ q5p ⊹
    z 136 ⊛ q3p) ⊛ z 2153 ⊹ (z 132 ⊛ z 1578 ⊹ z 133 ⊛ z 1543 ⊹ l1 ⊛ z 1126 ⊛ q4p ⊹ n 2 ⊛ l1 ⊛ z
    1152 ⊛ q5p ⊹ l1 ⊛ z 3 ⊛ z 43 ⊛ q3p) ⊛ z 265 ⊹ (z 135 ⊛ z 1578 ⊹ z 136 ⊛ z 1543 ⊹ l2 ⊛ z 1126 ⊛
    q4p ⊹ n 2 ⊛ l2 ⊛ z 1152 ⊛ q5p ⊹ l2 ⊛ z 3 ⊛ z 43 ⊛ q3p) ⊛ z 267 ⊝ z 2259),
(2272, z 2252 ⊹ (z 143 ⊛ q5p ⊹ z 144 ⊛ q4p ⊹ z 145 ⊛ q3p) ⊛ z 2152 ⊝ d1 ⊛ z 2158 ⊝ (z 1066 ⊛ q3p ⊝
    z 143 ⊛ z 1578 ⊝ z 145 ⊛ z 1543 ⊝ d1 ⊛ z 1061 ⊛ q4p ⊝ d1 ⊛ z 1156 ⊛ q5p) ⊛ z 265),
(2273, z 158 ⊛ z 1132 ⊝ d2 ⊛ z 1134 ⊝ l4 ⊛ z 1134),
(2274, (z 159 ⊛ q3p ⊹ z 160 ⊛ q5p ⊹ z 161 ⊛ q7p ⊹ z 162 ⊛ q4p) ⊛ z 2195 ⊝ z 158 ⊛ z 2201 ⊝ (z 164
    ⊛ q5p ⊹ z 165 ⊛ q4p ⊹ z 166 ⊛ q3p) ⊛ z 2194 ⊝ (z 164 ⊛ z 1578 ⊹ z 166 ⊛ z 1543 ⊹ z 163 ⊛ z
    1127 ⊛ q4p ⊹ z 163 ⊛ z 1153 ⊛ q5p ⊹ z 163 ⊛ z 29 ⊛ z 43 ⊛ q3p) ⊛ z 293 ⊝ (z 2085 ⊛ q3p ⊝ z 159
    ⊛ z 1543 ⊝ z 160 ⊛ z 1578 ⊝ z 2109 ⊛ q7p ⊝ z 2111 ⊛ q5p ⊝ z 2273 ⊛ q4p) ⊛ z 292),
(2275, z 2249 ⊹ (z 1066 ⊛ q3p ⊝ z 143 ⊛ z 1578 ⊝ z 145 ⊛ z 1543 ⊝ d1 ⊛ z 1061 ⊛ q4p ⊝ d1 ⊛ z 1156
    ⊛ q5p) ⊛ z 267 ⊝ (z 140 ⊛ q4p ⊹ z 141 ⊛ q5p ⊹ z 142 ⊛ q3p) ⊛ z 2151 ⊝ (z 143 ⊛ q5p ⊹ z 144 ⊛
    q4p ⊹ z 145 ⊛ q3p) ⊛ z 2153 ⊝ (z 141 ⊛ z 1578 ⊹ z 142 ⊛ z 1543 ⊹ d1 ⊛ z 1126 ⊛ q4p ⊹ n 2 ⊛ d1
    ⊛ z 1152 ⊛ q5p ⊹ d1 ⊛ z 3 ⊛ z 43 ⊛ q3p) ⊛ z 266),
(2276, d1 ⊛ z 2150 ⊹ (z 140 ⊛ q4p ⊹ z 141 ⊛ q5p ⊹ z 142 ⊛ q3p) ⊛ z 2152 ⊹ (z 141 ⊛ z 1578 ⊹ z 142
    ⊛ z 1543 ⊹ d1 ⊛ z 1126 ⊛ q4p ⊹ n 2 ⊛ d1 ⊛ z 1152 ⊛ q5p ⊹ d1 ⊛ z 3 ⊛ z 43 ⊛ q3p) ⊛ z 265 ⊝ z
    2259),
(2277, z 158 ⊛ z 2193 ⊝ d2 ⊛ z 2185 ⊝ l4 ⊛ z 2185)]

/-- _mooreriderlean2012.py:3869-3940 -/
def part29 : List (ℕ × E) := [
(2278, z 2277 ⊹ (z 164 ⊛ q5p ⊹ z 165 ⊛ q4p ⊹ z 166 ⊛ q3p) ⊛ z 2196 ⊹ (z 167 ⊛ q5p ⊹ z 168 ⊛ q4p ⊹
    z 169 ⊛ q3p) ⊛ z 2195 ⊹ (z 164 ⊛ z 1578 ⊹ z 166 ⊛ z 1543 ⊹ z 163 ⊛ z 1127 ⊛ q4p ⊹ z 163 ⊛ z
    1153 ⊛ q5p ⊹ z 163 ⊛ z 29 ⊛ z 43 ⊛ q3p) ⊛ z 294 ⊹ (z 167 ⊛ z 1578 ⊹ z 169 ⊛ z 1543 ⊹ z 158 ⊛ z
    1127 ⊛ q4p ⊹ z 158 ⊛ z 1153 ⊛ q5p ⊹ z 158 ⊛ z 29 ⊛ z 43 ⊛ q3p) ⊛ z 292),
(2279, z 163 ⊛ z 2201 ⊹ (z 2085 ⊛ q3p ⊝ z 159 ⊛ z 1543 ⊝ z 160 ⊛ z 1578 ⊝ z 2109 ⊛ q7p ⊝ z 2111 ⊛
    q5p ⊝ z 2273 ⊛ q4p) ⊛ z 294 ⊝ (z 167 ⊛ q5p ⊹ z 168 ⊛ q4p ⊹ z 169 ⊛ q3p) ⊛ z 2194 ⊝ (z 159 ⊛
    q3p ⊹ z 160 ⊛ q5p ⊹ z 161 ⊛ q7p ⊹ z 162 ⊛ q4p) ⊛ z 2196 ⊝ (z 167 ⊛ z 1578 ⊹ z 169 ⊛ z 1543 ⊹ z
    158 ⊛ z 1127 ⊛ q4p ⊹ z 158 ⊛ z 1153 ⊛ q5p ⊹ z 158 ⊛ z 29 ⊛ z 43 ⊛ q3p) ⊛ z 293),
(2280, (z 148 ⊛ q3p ⊹ z 149 ⊛ q5p ⊹ z 150 ⊛ q7p ⊹ z 151 ⊛ q4p) ⊛ z 2195 ⊝ d3 ⊛ z 2201 ⊝ (z 152 ⊛
    q5p ⊹ z 153 ⊛ q4p ⊹ z 154 ⊛ q3p) ⊛ z 2194 ⊝ (z 152 ⊛ z 1578 ⊹ z 154 ⊛ z 1543 ⊹ d2 ⊛ z 1127 ⊛
    q4p ⊹ d2 ⊛ z 1153 ⊛ q5p ⊹ d2 ⊛ z 29 ⊛ z 43 ⊛ q3p) ⊛ z 293 ⊝ (z 1074 ⊛ q3p ⊝ z 148 ⊛ z 1543 ⊝ z
    149 ⊛ z 1578 ⊝ z 1135 ⊛ q4p ⊝ z 1161 ⊛ q5p ⊝ z 1191 ⊛ q7p) ⊛ z 292),
(2281, d3 ⊛ z 2193 ⊝ d2 ⊛ z 2185),
(2282, z 2281 ⊹ (z 152 ⊛ q5p ⊹ z 153 ⊛ q4p ⊹ z 154 ⊛ q3p) ⊛ z 2196 ⊹ (z 155 ⊛ q5p ⊹ z 156 ⊛ q4p ⊹
    z 157 ⊛ q3p) ⊛ z 2195 ⊹ (z 152 ⊛ z 1578 ⊹ z 154 ⊛ z 1543 ⊹ d2 ⊛ z 1127 ⊛ q4p ⊹ d2 ⊛ z 1153 ⊛
    q5p ⊹ d2 ⊛ z 29 ⊛ z 43 ⊛ q3p) ⊛ z 294 ⊹ (z 155 ⊛ z 1578 ⊹ z 157 ⊛ z 1543 ⊹ d3 ⊛ z 1127 ⊛ q4p ⊹
    d3 ⊛ z 1153 ⊛ q5p ⊹ d3 ⊛ z 29 ⊛ z 43 ⊛ q3p) ⊛ z 292),
(2283, d2 ⊛ z 2201 ⊹ (z 1074 ⊛ q3p ⊝ z 148 ⊛ z 1543 ⊝ z 149 ⊛ z 1578 ⊝ z 1135 ⊛ q4p ⊝ z 1161 ⊛ q5p
    ⊝ z 1191 ⊛ q7p) ⊛ z 294 ⊝ (z 155 ⊛ q5p ⊹ z 156 ⊛ q4p ⊹ z 157 ⊛ q3p) ⊛ z 2194 ⊝ (z 148 ⊛ q3p ⊹
    z 149 ⊛ q5p ⊹ z 150 ⊛ q7p ⊹ z 151 ⊛ q4p) ⊛ z 2196 ⊝ (z 155 ⊛ z 1578 ⊹ z 157 ⊛ z 1543 ⊹ d3 ⊛ z
    1127 ⊛ q4p ⊹ d3 ⊛ z 1153 ⊛ q5p ⊹ d3 ⊛ z 29 ⊛ z 43 ⊛ q3p) ⊛ z 293),
(2284, z 45 ⊛ z 2155 ⊹ z 46 ⊛ z 2160 ⊹ z 46 ⊛ z 2163 ⊹ z 48 ⊛ z 762 ⊹ z 48 ⊛ z 773 ⊹ z 48 ⊛ z 780
    ⊹ z 49 ⊛ z 2164 ⊹ z 60 ⊛ z 2169 ⊹ z 63 ⊛ z 2174 ⊹ z 74 ⊛ z 2198 ⊹ z 77 ⊛ z 2203 ⊹ z 77 ⊛ z
    2206 ⊹ z 80 ⊛ z 2207 ⊹ z 92 ⊛ z 2214 ⊹ z 97 ⊛ z 2220 ⊹ z 109 ⊛ z 2235 ⊹ z 113 ⊛ z 2241 ⊹ z 117
    ⊛ z 2242 ⊹ z 1061 ⊛ z 765 ⊹ z 1061 ⊛ z 777 ⊹ z 1061 ⊛ z 779 ⊹ z 1062 ⊛ z 787 ⊹ z 1062 ⊛ z 799
    ⊹ z 1063 ⊛ z 796 ⊹ z 1063 ⊛ z 797 ⊹ z 1126 ⊛ z 769 ⊹ z 1126 ⊛ z 778 ⊹ z 1126 ⊛ z 792 ⊹ z 1126
    ⊛ z 798 ⊹ z 1127 ⊛ z 816 ⊹ z 1127 ⊛ z 827 ⊹ z 1127 ⊛ z 842 ⊹ z 1127 ⊛ z 849 ⊹ z 1132 ⊛ z 812 ⊹
    z 1132 ⊛ z 826 ⊹ z 1132 ⊛ z 828 ⊹ z 1134 ⊛ z 807 ⊹ z 1134 ⊛ z 821 ⊹ z 1134 ⊛ z 829 ⊹ z 1137 ⊛
    z 847 ⊹ z 1137 ⊛ z 848 ⊹ z 1138 ⊛ z 837 ⊹ z 1138 ⊛ z 850 ⊹ z 2221 ⊛ z 858 ⊹ z 2221 ⊛ z 872 ⊹ z
    2221 ⊛ z 879 ⊹ z 2229 ⊛ z 868 ⊹ z 2229 ⊛ z 877 ⊹ z 2232 ⊛ z 863 ⊹ z 2232 ⊛ z 876 ⊹ z 2232 ⊛ z
    878 ⊹ ic11 ⊛ z 45 ⊛ z 2146 ⊹ ic22 ⊛ z 46 ⊛ z 2158 ⊹ ic31 ⊛ z 45 ⊛ z 2150 ⊹ ic31 ⊛ z 49 ⊛ z
    2146 ⊹ ic33 ⊛ z 49 ⊛ z 2150 ⊹ id11 ⊛ z 60 ⊛ z 2168 ⊹ id11 ⊛ z 63 ⊛ z 2173 ⊹ id22 ⊛ z 46 ⊛ z
    2158 ⊹ ie11 ⊛ z 74 ⊛ z 2185 ⊹ ie22 ⊛ z 77 ⊛ z 2201 ⊹ ie31 ⊛ z 74 ⊛ z 2193 ⊹ ie31 ⊛ z 80 ⊛ z
    2185 ⊹ ie33 ⊛ z 80 ⊛ z 2193 ⊹ if11 ⊛ z 92 ⊛ z 2212 ⊹ if11 ⊛ z 97 ⊛ z 2219 ⊹ if22 ⊛ z 77 ⊛ z
    2201 ⊹ ig11 ⊛ z 109 ⊛ z 2224 ⊹ ig22 ⊛ z 113 ⊛ z 2239 ⊹ ig31 ⊛ z 109 ⊛ z 2228 ⊹ ig31 ⊛ z 117 ⊛
    z 2224 ⊹ ig33 ⊛ z 117 ⊛ z 2228 ⊹ md ⊛ z 4 ⊛ z 119 ⊛ z 358 ⊹ mg ⊛ (z 209 ⊛ z 2256 ⊹ z 212 ⊛ z
    2263 ⊹ z 215 ⊛ z 2266 ⊹ (z 2255 ⊹ z 2257) ⊛ z 400 ⊹ (z 2243 ⊹ l6 ⊛ z 2229) ⊛ z 399 ⊹ (z 2264 ⊝
    l5 ⊛ z 2229) ⊛ z 401) ⊝ md ⊛ z 3 ⊛ z 119 ⊛ z 2248 ⊝ mc ⊛ (z 131 ⊛ z 2268 ⊹ l1 ⊛ z 1126 ⊛ z 369
    ⊝ z 134 ⊛ z 2269 ⊝ z 139 ⊛ z 2271 ⊝ z 2267 ⊛ z 368 ⊝ l2 ⊛ z 1126 ⊛ z 367) ⊝ me ⊛ (z 140 ⊛ z
    2272 ⊹ z 140 ⊛ z 2274 ⊹ z 168 ⊛ z 2272 ⊹ z 168 ⊛ z 2274 ⊹ d1 ⊛ z 1126 ⊛ z 374 ⊹ d1 ⊛ z 1126 ⊛
    z 386 ⊹ z 158 ⊛ z 1127 ⊛ z 374 ⊹ z 158 ⊛ z 1127 ⊛ z 386 ⊹ z 10 ⊛ z 162 ⊛ z 2275 ⊹ z 10 ⊛ z
    2273 ⊛ z 372 ⊝ z 147 ⊛ z 2276 ⊝ z 162 ⊛ z 2278 ⊝ z 165 ⊛ z 2279 ⊝ z 2273 ⊛ z 384 ⊝ d1 ⊛ z 1061
    ⊛ z 373 ⊝ z 163 ⊛ z 1127 ⊛ z 385 ⊝ z 9 ⊛ z 147 ⊛ z 2278 ⊝ z 9 ⊛ z 162 ⊛ z 2276 ⊝ z 9 ⊛ z 165 ⊛
    z 2275 ⊝ z 9 ⊛ z 2273 ⊛ z 373 ⊝ z 10 ⊛ z 147 ⊛ z 2279 ⊝ z 10 ⊛ z 165 ⊛ z 2276 ⊝ d1 ⊛ z 9 ⊛ z
    1061 ⊛ z 384 ⊝ d1 ⊛ z 10 ⊛ z 1061 ⊛ z 385 ⊝ z 163 ⊛ z 9 ⊛ z 1127 ⊛ z 372 ⊝ z 163 ⊛ z 10 ⊛ z
    1127 ⊛ z 373) ⊝ mf ⊛ (z 140 ⊛ z 2272 ⊹ z 140 ⊛ z 2280 ⊹ z 156 ⊛ z 2272 ⊹ z 156 ⊛ z 2280 ⊹ d1 ⊛
    z 1126 ⊛ z 374 ⊹ d1 ⊛ z 1126 ⊛ z 380 ⊹ d3 ⊛ z 1127 ⊛ z 374 ⊹ d3 ⊛ z 1127 ⊛ z 380 ⊹ z 10 ⊛ z
    151 ⊛ z 2275 ⊹ z 10 ⊛ z 1135 ⊛ z 372 ⊝ z 147 ⊛ z 2276 ⊝ z 151 ⊛ z 2282 ⊝ z 153 ⊛ z 2283 ⊝ z
    1135 ⊛ z 378 ⊝ d1 ⊛ z 1061 ⊛ z 373 ⊝ d2 ⊛ z 1127 ⊛ z 379 ⊝ z 9 ⊛ z 147 ⊛ z 2282 ⊝ z 9 ⊛ z 151
    ⊛ z 2276 ⊝ z 9 ⊛ z 153 ⊛ z 2275 ⊝ z 9 ⊛ z 1135 ⊛ z 373 ⊝ z 10 ⊛ z 147 ⊛ z 2283 ⊝ z 10 ⊛ z 153
    ⊛ z 2276 ⊝ d1 ⊛ z 9 ⊛ z 1061 ⊛ z 378 ⊝ d1 ⊛ z 10 ⊛ z 1061 ⊛ z 379 ⊝ d2 ⊛ z 9 ⊛ z 1127 ⊛ z 372
    ⊝ d2 ⊛ z 10 ⊛ z 1127 ⊛ z 373)),
(2285, md ⊛ (z 1 ⊛ z 2246 ⊹ z 2 ⊛ z 2248 ⊹ z 2 ⊛ z 3 ⊛ z 360) ⊹ mg ⊛ (z 182 ⊛ z 2256 ⊹ z 187 ⊛ z
    2263 ⊹ z 192 ⊛ z 2266 ⊹ z 2062 ⊛ z 400 ⊝ z 2061 ⊛ z 399 ⊝ z 2063 ⊛ z 401) ⊹ mc ⊛ (z 120 ⊛ z
    2269 ⊹ z 122 ⊛ z 2268 ⊹ z 2 ⊛ z 4 ⊛ z 368 ⊹ z 2 ⊛ z 3 ⊛ z 5 ⊛ z 369 ⊝ z 121 ⊛ z 2271 ⊝ z 2 ⊛ z
    3 ⊛ z 6 ⊛ z 367) ⊝ me ⊛ (z 121 ⊛ z 2276 ⊹ z 9 ⊛ z 121 ⊛ z 2278 ⊹ z 10 ⊛ z 120 ⊛ z 2278 ⊹ z 10
    ⊛ z 121 ⊛ z 2279 ⊹ z 2 ⊛ z 3 ⊛ z 6 ⊛ z 372 ⊹ z 2 ⊛ z 3 ⊛ z 6 ⊛ z 9 ⊛ z 385 ⊝ z 120 ⊛ z 2275 ⊝
    z 122 ⊛ z 2272 ⊝ z 122 ⊛ z 2274 ⊝ z 2 ⊛ z 4 ⊛ z 373 ⊝ z 9 ⊛ z 120 ⊛ z 2279 ⊝ z 2 ⊛ z 3 ⊛ z 5 ⊛
    z 374 ⊝ z 2 ⊛ z 3 ⊛ z 5 ⊛ z 386 ⊝ z 2 ⊛ z 4 ⊛ z 9 ⊛ z 384 ⊝ z 2 ⊛ z 4 ⊛ z 10 ⊛ z 385 ⊝ z 2 ⊛ z
    3 ⊛ z 6 ⊛ z 10 ⊛ z 384) ⊝ mf ⊛ (z 121 ⊛ z 2276 ⊹ z 9 ⊛ z 121 ⊛ z 2282 ⊹ z 10 ⊛ z 120 ⊛ z 2282
    ⊹ z 10 ⊛ z 121 ⊛ z 2283 ⊹ z 2 ⊛ z 3 ⊛ z 6 ⊛ z 372 ⊹ z 2 ⊛ z 3 ⊛ z 6 ⊛ z 9 ⊛ z 379 ⊝ z 120 ⊛ z
    2275 ⊝ z 122 ⊛ z 2272 ⊝ z 122 ⊛ z 2280 ⊝ z 2 ⊛ z 4 ⊛ z 373 ⊝ z 9 ⊛ z 120 ⊛ z 2283 ⊝ z 2 ⊛ z 3
    ⊛ z 5 ⊛ z 374 ⊝ z 2 ⊛ z 3 ⊛ z 5 ⊛ z 380 ⊝ z 2 ⊛ z 4 ⊛ z 9 ⊛ z 378 ⊝ z 2 ⊛ z 4 ⊛ z 10 ⊛ z 379 ⊝
    z 2 ⊛ z 3 ⊛ z 6 ⊛ z 10 ⊛ z 378))]

/-- _mooreriderlean2012.py:3941-4016 -/
def part30 : List (ℕ × E) := [
(2286, z 51 ⊛ z 2160 ⊹ z 51 ⊛ z 2163 ⊹ z 52 ⊛ z 2164 ⊹ z 52 ⊛ z 2207 ⊹ z 61 ⊛ z 2169 ⊹ z 64 ⊛ z
    2174 ⊹ z 81 ⊛ z 2198 ⊹ z 82 ⊛ z 2203 ⊹ z 82 ⊛ z 2206 ⊹ z 90 ⊛ z 2214 ⊹ z 94 ⊛ z 2220 ⊹ z 110 ⊛
    z 2235 ⊹ z 112 ⊛ z 2241 ⊹ z 115 ⊛ z 2242 ⊹ ic22 ⊛ z 51 ⊛ z 2158 ⊹ ic31 ⊛ z 52 ⊛ z 2146 ⊹ ic33
    ⊛ z 52 ⊛ z 2150 ⊹ id11 ⊛ z 61 ⊛ z 2168 ⊹ id11 ⊛ z 64 ⊛ z 2173 ⊹ id22 ⊛ z 51 ⊛ z 2158 ⊹ ie11 ⊛
    z 81 ⊛ z 2185 ⊹ ie22 ⊛ z 82 ⊛ z 2201 ⊹ ie31 ⊛ z 52 ⊛ z 2185 ⊹ ie31 ⊛ z 81 ⊛ z 2193 ⊹ ie33 ⊛ z
    52 ⊛ z 2193 ⊹ if11 ⊛ z 90 ⊛ z 2212 ⊹ if11 ⊛ z 94 ⊛ z 2219 ⊹ if22 ⊛ z 82 ⊛ z 2201 ⊹ ig11 ⊛ z
    110 ⊛ z 2224 ⊹ ig22 ⊛ z 112 ⊛ z 2239 ⊹ ig31 ⊛ z 110 ⊛ z 2228 ⊹ ig31 ⊛ z 115 ⊛ z 2224 ⊹ ig33 ⊛
    z 115 ⊛ z 2228 ⊹ z 3 ⊛ z 43 ⊛ z 769 ⊹ z 3 ⊛ z 43 ⊛ z 778 ⊹ z 3 ⊛ z 43 ⊛ z 792 ⊹ z 3 ⊛ z 43 ⊛ z
    798 ⊹ z 27 ⊛ z 43 ⊛ z 807 ⊹ z 27 ⊛ z 43 ⊛ z 821 ⊹ z 27 ⊛ z 43 ⊛ z 829 ⊹ z 29 ⊛ z 43 ⊛ z 816 ⊹
    z 29 ⊛ z 43 ⊛ z 827 ⊹ z 29 ⊛ z 43 ⊛ z 842 ⊹ z 29 ⊛ z 43 ⊛ z 849 ⊹ z 43 ⊛ z 1077 ⊛ z 847 ⊹ z 43
    ⊛ z 1077 ⊛ z 848 ⊹ z 43 ⊛ z 1078 ⊛ z 837 ⊹ z 43 ⊛ z 1078 ⊛ z 850 ⊹ z 43 ⊛ z 1141 ⊛ z 787 ⊹ z
    43 ⊛ z 1141 ⊛ z 799 ⊹ z 43 ⊛ z 2065 ⊛ z 858 ⊹ z 43 ⊛ z 2065 ⊛ z 872 ⊹ z 43 ⊛ z 2065 ⊛ z 879 ⊹
    z 43 ⊛ z 2066 ⊛ z 863 ⊹ z 43 ⊛ z 2066 ⊛ z 876 ⊹ z 43 ⊛ z 2066 ⊛ z 878 ⊹ z 43 ⊛ z 2067 ⊛ z 868
    ⊹ z 43 ⊛ z 2067 ⊛ z 877 ⊹ z 4 ⊛ z 6 ⊛ z 43 ⊛ z 762 ⊹ z 4 ⊛ z 6 ⊛ z 43 ⊛ z 773 ⊹ z 4 ⊛ z 6 ⊛ z
    43 ⊛ z 780 ⊹ mg ⊛ (z 211 ⊛ z 2256 ⊹ z 214 ⊛ z 2263 ⊹ z 217 ⊛ z 2266 ⊹ z 2074 ⊛ z 401 ⊹ z 2076
    ⊛ z 399 ⊹ (z 2071 ⊹ z 2072) ⊛ z 400) ⊝ z 50 ⊛ z 2155 ⊝ ic11 ⊛ z 50 ⊛ z 2146 ⊝ ic31 ⊛ z 50 ⊛ z
    2150 ⊝ md ⊛ z 118 ⊛ z 2246 ⊝ z 43 ⊛ z 1142 ⊛ z 796 ⊝ z 43 ⊛ z 1142 ⊛ z 797 ⊝ z 2086 ⊛ z 3 ⊛ z
    43 ⊛ z 359 ⊝ z 4 ⊛ z 5 ⊛ z 43 ⊛ z 765 ⊝ z 4 ⊛ z 5 ⊛ z 43 ⊛ z 777 ⊝ z 4 ⊛ z 5 ⊛ z 43 ⊛ z 779 ⊝
    z 4 ⊛ z 5 ⊛ z 43 ⊛ z 812 ⊝ z 4 ⊛ z 5 ⊛ z 43 ⊛ z 826 ⊝ z 4 ⊛ z 5 ⊛ z 43 ⊛ z 828 ⊝ mc ⊛ (z 2083
    ⊛ z 368 ⊝ z 130 ⊛ z 2271 ⊝ z 137 ⊛ z 2269 ⊝ z 138 ⊛ z 2268 ⊝ z 2082 ⊛ z 367 ⊝ z 2084 ⊛ z 369)
    ⊝ me ⊛ (z 126 ⊛ z 2275 ⊹ z 169 ⊛ z 2272 ⊹ z 169 ⊛ z 2274 ⊹ z 1066 ⊛ z 373 ⊹ z 1067 ⊛ z 372 ⊹ z
    2085 ⊛ z 384 ⊹ z 9 ⊛ z 126 ⊛ z 2279 ⊹ z 9 ⊛ z 1066 ⊛ z 384 ⊹ z 9 ⊛ z 1067 ⊛ z 385 ⊹ z 9 ⊛ z
    2085 ⊛ z 373 ⊹ z 10 ⊛ z 159 ⊛ z 2275 ⊹ z 10 ⊛ z 1066 ⊛ z 385 ⊹ z 158 ⊛ z 29 ⊛ z 43 ⊛ z 374 ⊹ z
    158 ⊛ z 29 ⊛ z 43 ⊛ z 386 ⊝ z 145 ⊛ z 2276 ⊝ z 146 ⊛ z 2272 ⊝ z 146 ⊛ z 2274 ⊝ z 159 ⊛ z 2278
    ⊝ z 166 ⊛ z 2279 ⊝ z 1081 ⊛ z 374 ⊝ z 1081 ⊛ z 386 ⊝ z 9 ⊛ z 145 ⊛ z 2278 ⊝ z 9 ⊛ z 159 ⊛ z
    2276 ⊝ z 9 ⊛ z 166 ⊛ z 2275 ⊝ z 10 ⊛ z 126 ⊛ z 2278 ⊝ z 10 ⊛ z 145 ⊛ z 2279 ⊝ z 10 ⊛ z 166 ⊛ z
    2276 ⊝ z 10 ⊛ z 1067 ⊛ z 384 ⊝ z 10 ⊛ z 2085 ⊛ z 372 ⊝ z 163 ⊛ z 29 ⊛ z 43 ⊛ z 385 ⊝ z 163 ⊛ z
    9 ⊛ z 29 ⊛ z 43 ⊛ z 372 ⊝ z 163 ⊛ z 10 ⊛ z 29 ⊛ z 43 ⊛ z 373) ⊝ mf ⊛ (z 126 ⊛ z 2275 ⊹ z 157 ⊛
    z 2272 ⊹ z 157 ⊛ z 2280 ⊹ z 1066 ⊛ z 373 ⊹ z 1067 ⊛ z 372 ⊹ z 1074 ⊛ z 378 ⊹ z 9 ⊛ z 126 ⊛ z
    2283 ⊹ z 9 ⊛ z 1066 ⊛ z 378 ⊹ z 9 ⊛ z 1067 ⊛ z 379 ⊹ z 9 ⊛ z 1074 ⊛ z 373 ⊹ z 10 ⊛ z 148 ⊛ z
    2275 ⊹ z 10 ⊛ z 1066 ⊛ z 379 ⊹ d3 ⊛ z 29 ⊛ z 43 ⊛ z 374 ⊹ d3 ⊛ z 29 ⊛ z 43 ⊛ z 380 ⊝ z 145 ⊛ z
    2276 ⊝ z 146 ⊛ z 2272 ⊝ z 146 ⊛ z 2280 ⊝ z 148 ⊛ z 2282 ⊝ z 154 ⊛ z 2283 ⊝ z 1081 ⊛ z 374 ⊝ z
    1081 ⊛ z 380 ⊝ z 9 ⊛ z 145 ⊛ z 2282 ⊝ z 9 ⊛ z 148 ⊛ z 2276 ⊝ z 9 ⊛ z 154 ⊛ z 2275 ⊝ z 10 ⊛ z
    126 ⊛ z 2282 ⊝ z 10 ⊛ z 145 ⊛ z 2283 ⊝ z 10 ⊛ z 154 ⊛ z 2276 ⊝ z 10 ⊛ z 1067 ⊛ z 378 ⊝ z 10 ⊛
    z 1074 ⊛ z 372 ⊝ d2 ⊛ z 29 ⊛ z 43 ⊛ z 379 ⊝ d2 ⊛ z 9 ⊛ z 29 ⊛ z 43 ⊛ z 372 ⊝ d2 ⊛ z 10 ⊛ z 29
    ⊛ z 43 ⊛ z 373)),
(2287, z 47 ⊛ z 2160 ⊹ z 47 ⊛ z 2163 ⊹ z 48 ⊛ z 2164 ⊹ z 65 ⊛ z 2174 ⊹ z 73 ⊛ z 2198 ⊹ z 76 ⊛ z
    2203 ⊹ z 76 ⊛ z 2206 ⊹ z 78 ⊛ z 2207 ⊹ z 91 ⊛ z 2214 ⊹ z 95 ⊛ z 2220 ⊹ z 111 ⊛ z 2235 ⊹ z 114
    ⊛ z 2241 ⊹ z 116 ⊛ z 2242 ⊹ z 1153 ⊛ z 816 ⊹ z 1153 ⊛ z 827 ⊹ z 1153 ⊛ z 842 ⊹ z 1153 ⊛ z 849
    ⊹ z 1156 ⊛ z 765 ⊹ z 1156 ⊛ z 777 ⊹ z 1156 ⊛ z 779 ⊹ z 1159 ⊛ z 812 ⊹ z 1159 ⊛ z 826 ⊹ z 1159
    ⊛ z 828 ⊹ z 1160 ⊛ z 807 ⊹ z 1160 ⊛ z 821 ⊹ z 1160 ⊛ z 829 ⊹ z 1163 ⊛ z 847 ⊹ z 1163 ⊛ z 848 ⊹
    z 1164 ⊛ z 837 ⊹ z 1164 ⊛ z 850 ⊹ z 2051 ⊛ z 863 ⊹ z 2051 ⊛ z 876 ⊹ z 2051 ⊛ z 878 ⊹ z 2052 ⊛
    z 868 ⊹ z 2052 ⊛ z 877 ⊹ n 2 ⊛ z 1152 ⊛ z 769 ⊹ n 2 ⊛ z 1152 ⊛ z 778 ⊹ n 2 ⊛ z 1152 ⊛ z 792 ⊹
    n 2 ⊛ z 1152 ⊛ z 798 ⊹ ic22 ⊛ z 47 ⊛ z 2158 ⊹ ic31 ⊛ z 48 ⊛ z 2146 ⊹ ic33 ⊛ z 48 ⊛ z 2150 ⊹
    id11 ⊛ z 65 ⊛ z 2173 ⊹ id22 ⊛ z 47 ⊛ z 2158 ⊹ ie11 ⊛ z 73 ⊛ z 2185 ⊹ ie22 ⊛ z 76 ⊛ z 2201 ⊹
    ie31 ⊛ z 73 ⊛ z 2193 ⊹ ie31 ⊛ z 78 ⊛ z 2185 ⊹ ie33 ⊛ z 78 ⊛ z 2193 ⊹ if11 ⊛ z 91 ⊛ z 2212 ⊹
    if11 ⊛ z 95 ⊛ z 2219 ⊹ if22 ⊛ z 76 ⊛ z 2201 ⊹ ig11 ⊛ z 111 ⊛ z 2224 ⊹ ig22 ⊛ z 114 ⊛ z 2239 ⊹
    ig31 ⊛ z 111 ⊛ z 2228 ⊹ ig31 ⊛ z 116 ⊛ z 2224 ⊹ ig33 ⊛ z 116 ⊛ z 2228 ⊹ z 14 ⊛ z 1156 ⊛ z 858
    ⊹ z 14 ⊛ z 1156 ⊛ z 872 ⊹ z 14 ⊛ z 1156 ⊛ z 879 ⊹ z 7 ⊛ z 1156 ⊛ z 796 ⊹ z 7 ⊛ z 1156 ⊛ z 797
    ⊹ mg ⊛ (z 210 ⊛ z 2256 ⊹ z 213 ⊛ z 2263 ⊹ z 216 ⊛ z 2266 ⊹ (z 2053 ⊹ z 2055) ⊛ z 400 ⊹ (n 2 ⊛
    z 2058 ⊹ l6 ⊛ z 2052) ⊛ z 399 ⊹ (z 2056 ⊝ l5 ⊛ z 2052) ⊛ z 401) ⊝ z 62 ⊛ z 2169 ⊝ id11 ⊛ z 62
    ⊛ z 2168 ⊝ z 8 ⊛ z 1156 ⊛ z 787 ⊝ z 8 ⊛ z 1156 ⊛ z 799 ⊝ mc ⊛ (z 132 ⊛ z 2268 ⊹ n 2 ⊛ l1 ⊛ z
    1152 ⊛ z 369 ⊝ z 128 ⊛ z 2271 ⊝ z 135 ⊛ z 2269 ⊝ n 2 ⊛ l2 ⊛ z 1152 ⊛ z 367 ⊝ l1 ⊛ z 1156 ⊛ z
    368) ⊝ me ⊛ (z 141 ⊛ z 2272 ⊹ z 141 ⊛ z 2274 ⊹ z 167 ⊛ z 2272 ⊹ z 167 ⊛ z 2274 ⊹ z 158 ⊛ z
    1153 ⊛ z 374 ⊹ z 158 ⊛ z 1153 ⊛ z 386 ⊹ z 10 ⊛ z 160 ⊛ z 2275 ⊹ z 10 ⊛ z 2111 ⊛ z 372 ⊹ n 2 ⊛
    d1 ⊛ z 1152 ⊛ z 374 ⊹ n 2 ⊛ d1 ⊛ z 1152 ⊛ z 386 ⊝ z 143 ⊛ z 2276 ⊝ z 160 ⊛ z 2278 ⊝ z 164 ⊛ z
    2279 ⊝ z 2111 ⊛ z 384 ⊝ d1 ⊛ z 1156 ⊛ z 373 ⊝ z 163 ⊛ z 1153 ⊛ z 385 ⊝ z 9 ⊛ z 143 ⊛ z 2278 ⊝
    z 9 ⊛ z 160 ⊛ z 2276 ⊝ z 9 ⊛ z 164 ⊛ z 2275 ⊝ z 9 ⊛ z 2111 ⊛ z 373 ⊝ z 10 ⊛ z 143 ⊛ z 2279 ⊝ z
    10 ⊛ z 164 ⊛ z 2276 ⊝ d1 ⊛ z 9 ⊛ z 1156 ⊛ z 384 ⊝ d1 ⊛ z 10 ⊛ z 1156 ⊛ z 385 ⊝ z 163 ⊛ z 9 ⊛ z
    1153 ⊛ z 372 ⊝ z 163 ⊛ z 10 ⊛ z 1153 ⊛ z 373) ⊝ mf ⊛ (z 141 ⊛ z 2272 ⊹ z 141 ⊛ z 2280 ⊹ z 155
    ⊛ z 2272 ⊹ z 155 ⊛ z 2280 ⊹ d3 ⊛ z 1153 ⊛ z 374 ⊹ d3 ⊛ z 1153 ⊛ z 380 ⊹ z 10 ⊛ z 149 ⊛ z 2275
    ⊹ z 10 ⊛ z 1161 ⊛ z 372 ⊹ n 2 ⊛ d1 ⊛ z 1152 ⊛ z 374 ⊹ n 2 ⊛ d1 ⊛ z 1152 ⊛ z 380 ⊝ z 143 ⊛ z
    2276 ⊝ z 149 ⊛ z 2282 ⊝ z 152 ⊛ z 2283 ⊝ z 1161 ⊛ z 378 ⊝ d1 ⊛ z 1156 ⊛ z 373 ⊝ d2 ⊛ z 1153 ⊛
    z 379 ⊝ z 9 ⊛ z 143 ⊛ z 2282 ⊝ z 9 ⊛ z 149 ⊛ z 2276 ⊝ z 9 ⊛ z 152 ⊛ z 2275 ⊝ z 9 ⊛ z 1161 ⊛ z
    373 ⊝ z 10 ⊛ z 143 ⊛ z 2283 ⊝ z 10 ⊛ z 152 ⊛ z 2276 ⊝ d1 ⊛ z 9 ⊛ z 1156 ⊛ z 378 ⊝ d1 ⊛ z 10 ⊛
    z 1156 ⊛ z 379 ⊝ d2 ⊛ z 9 ⊛ z 1153 ⊛ z 372 ⊝ d2 ⊛ z 10 ⊛ z 1153 ⊛ z 373)),
(2288, z 83 ⊛ (z 2206 ⊹ if22 ⊛ z 2201))]

/-- _mooreriderlean2012.py:4017-4116 -/
def part31 : List (ℕ × E) := [
(2289, md ⊛ (z 2 ⊛ z 2246 ⊝ z 1 ⊛ z 2248 ⊝ z 1 ⊛ z 3 ⊛ z 360) ⊹ me ⊛ (z 123 ⊛ z 2275 ⊹ z 124 ⊛ z
    2276 ⊹ z 125 ⊛ z 2272 ⊹ z 125 ⊛ z 2274 ⊹ z 9 ⊛ z 123 ⊛ z 2279 ⊹ z 9 ⊛ z 124 ⊛ z 2278 ⊹ z 10 ⊛
    z 124 ⊛ z 2279 ⊹ z 1 ⊛ z 3 ⊛ z 6 ⊛ z 372 ⊹ z 1 ⊛ z 3 ⊛ z 6 ⊛ z 9 ⊛ z 385 ⊝ z 1 ⊛ z 4 ⊛ z 373 ⊝
    z 10 ⊛ z 123 ⊛ z 2278 ⊝ z 1 ⊛ z 3 ⊛ z 5 ⊛ z 374 ⊝ z 1 ⊛ z 3 ⊛ z 5 ⊛ z 386 ⊝ z 1 ⊛ z 4 ⊛ z 9 ⊛
    z 384 ⊝ z 1 ⊛ z 4 ⊛ z 10 ⊛ z 385 ⊝ z 1 ⊛ z 3 ⊛ z 6 ⊛ z 10 ⊛ z 384) ⊹ mf ⊛ (z 123 ⊛ z 2275 ⊹ z
    124 ⊛ z 2276 ⊹ z 125 ⊛ z 2272 ⊹ z 125 ⊛ z 2280 ⊹ z 9 ⊛ z 123 ⊛ z 2283 ⊹ z 9 ⊛ z 124 ⊛ z 2282 ⊹
    z 10 ⊛ z 124 ⊛ z 2283 ⊹ z 1 ⊛ z 3 ⊛ z 6 ⊛ z 372 ⊹ z 1 ⊛ z 3 ⊛ z 6 ⊛ z 9 ⊛ z 379 ⊝ z 1 ⊛ z 4 ⊛
    z 373 ⊝ z 10 ⊛ z 123 ⊛ z 2282 ⊝ z 1 ⊛ z 3 ⊛ z 5 ⊛ z 374 ⊝ z 1 ⊛ z 3 ⊛ z 5 ⊛ z 380 ⊝ z 1 ⊛ z 4
    ⊛ z 9 ⊛ z 378 ⊝ z 1 ⊛ z 4 ⊛ z 10 ⊛ z 379 ⊝ z 1 ⊛ z 3 ⊛ z 6 ⊛ z 10 ⊛ z 378) ⊝ mg ⊛ (z 2048 ⊛ z
    400 ⊝ z 183 ⊛ z 2256 ⊝ z 188 ⊛ z 2263 ⊝ z 193 ⊛ z 2266 ⊝ z 2047 ⊛ z 399 ⊝ z 2049 ⊛ z 401) ⊝ mc
    ⊛ (z 1 ⊛ z 4 ⊛ z 368 ⊹ z 1 ⊛ z 3 ⊛ z 5 ⊛ z 369 ⊝ z 123 ⊛ z 2269 ⊝ z 124 ⊛ z 2271 ⊝ z 125 ⊛ z
    2268 ⊝ z 1 ⊛ z 3 ⊛ z 6 ⊛ z 367)),
(2290, z 2284 ⊹ z 538 ⊛ z 2285 ⊹ z 544 ⊛ z 2286 ⊹ z 547 ⊛ z 2287 ⊹ z 549 ⊛ z 2288 ⊹ z 1490 ⊛ z 917
    ⊝ z 541 ⊛ z 2289 ⊝ z 1187 ⊛ z 913 ⊝ z 1540 ⊛ z 925 ⊝ z 1576 ⊛ z 933 ⊝ z 1622 ⊛ z 938),
(2291, z 45 ⊛ z 2093 ⊹ z 48 ⊛ z 772 ⊹ z 49 ⊛ z 2098 ⊹ z 768 ⊛ z 1126 ⊹ z 776 ⊛ z 1061 ⊹ z 785 ⊛ z
    1062 ⊹ z 790 ⊛ z 1126 ⊹ z 794 ⊛ z 1063 ⊹ z 806 ⊛ z 1134 ⊹ z 811 ⊛ z 1132 ⊹ z 815 ⊛ z 1127 ⊹ z
    817 ⊛ z 1134 ⊹ z 822 ⊛ z 1132 ⊹ z 833 ⊛ z 1138 ⊹ z 840 ⊛ z 1127 ⊹ z 843 ⊛ z 1137 ⊹ z 856 ⊛ z
    2221 ⊹ z 861 ⊛ z 2232 ⊹ z 865 ⊛ z 2229 ⊹ z 869 ⊛ z 2221 ⊹ z 873 ⊛ z 2232 ⊹ ic22 ⊛ z 3 ⊛ z 43 ⊛
    z 46 ⊹ id11 ⊛ z 43 ⊛ z 60 ⊛ z 1141 ⊹ id22 ⊛ z 3 ⊛ z 43 ⊛ z 46 ⊹ ie11 ⊛ z 27 ⊛ z 43 ⊛ z 74 ⊹
    ie22 ⊛ z 29 ⊛ z 43 ⊛ z 77 ⊹ ie31 ⊛ z 27 ⊛ z 43 ⊛ z 80 ⊹ if11 ⊛ z 43 ⊛ z 92 ⊛ z 1078 ⊹ if11 ⊛ z
    43 ⊛ z 97 ⊛ z 1077 ⊹ if22 ⊛ z 29 ⊛ z 43 ⊛ z 77 ⊹ ig11 ⊛ z 43 ⊛ z 109 ⊛ z 2065 ⊹ ig22 ⊛ z 43 ⊛
    z 113 ⊛ z 2067 ⊹ ig31 ⊛ z 43 ⊛ z 109 ⊛ z 2066 ⊹ ig31 ⊛ z 43 ⊛ z 117 ⊛ z 2065 ⊹ ig33 ⊛ z 43 ⊛ z
    117 ⊛ z 2066 ⊹ mg ⊛ (z 209 ⊛ z 2076 ⊹ z 215 ⊛ z 2074 ⊹ z 212 ⊛ (z 2071 ⊹ z 2072) ⊹ z 214 ⊛ (z
    2255 ⊹ z 2257) ⊹ z 211 ⊛ (z 2243 ⊹ l6 ⊛ z 2229) ⊹ z 217 ⊛ (z 2264 ⊝ l5 ⊛ z 2229)) ⊝ z 45 ⊛ z
    2097 ⊝ z 48 ⊛ z 761 ⊝ z 49 ⊛ z 2094 ⊝ z 74 ⊛ z 2096 ⊝ z 80 ⊛ z 2095 ⊝ z 764 ⊛ z 1061 ⊝ id11 ⊛
    z 43 ⊛ z 63 ⊛ z 1142 ⊝ mc ⊛ (z 131 ⊛ z 2084 ⊹ z 139 ⊛ z 2083 ⊹ l1 ⊛ z 138 ⊛ z 1126 ⊝ z 130 ⊛ z
    2267 ⊝ z 134 ⊛ z 2082 ⊝ l2 ⊛ z 137 ⊛ z 1126) ⊝ me ⊛ (z 140 ⊛ z 1081 ⊹ z 147 ⊛ z 1066 ⊹ z 162 ⊛
    z 2085 ⊹ z 168 ⊛ z 1081 ⊹ d1 ⊛ z 146 ⊛ z 1126 ⊹ z 158 ⊛ z 146 ⊛ z 1127 ⊹ z 9 ⊛ z 147 ⊛ z 2085
    ⊹ z 9 ⊛ z 162 ⊛ z 1066 ⊹ z 9 ⊛ z 165 ⊛ z 1067 ⊹ z 10 ⊛ z 165 ⊛ z 1066 ⊹ z 163 ⊛ z 9 ⊛ z 126 ⊛
    z 1127 ⊝ z 159 ⊛ z 2273 ⊝ d1 ⊛ z 145 ⊛ z 1061 ⊝ d1 ⊛ z 169 ⊛ z 1126 ⊝ z 158 ⊛ z 169 ⊛ z 1127 ⊝
    z 163 ⊛ z 166 ⊛ z 1127 ⊝ z 9 ⊛ z 145 ⊛ z 2273 ⊝ z 10 ⊛ z 126 ⊛ z 2273 ⊝ z 10 ⊛ z 162 ⊛ z 1067
    ⊝ d1 ⊛ z 9 ⊛ z 159 ⊛ z 1061 ⊝ d1 ⊛ z 10 ⊛ z 166 ⊛ z 1061 ⊝ z 158 ⊛ z 29 ⊛ z 43 ⊛ z 140 ⊝ z 158
    ⊛ z 29 ⊛ z 43 ⊛ z 168 ⊝ z 163 ⊛ z 10 ⊛ z 145 ⊛ z 1127 ⊝ z 163 ⊛ z 29 ⊛ z 43 ⊛ z 165 ⊝ z 163 ⊛
    z 10 ⊛ z 29 ⊛ z 43 ⊛ z 147) ⊝ mf ⊛ (z 140 ⊛ z 1081 ⊹ z 147 ⊛ z 1066 ⊹ z 151 ⊛ z 1074 ⊹ z 156 ⊛
    z 1081 ⊹ d1 ⊛ z 146 ⊛ z 1126 ⊹ d3 ⊛ z 146 ⊛ z 1127 ⊹ z 9 ⊛ z 147 ⊛ z 1074 ⊹ z 9 ⊛ z 151 ⊛ z
    1066 ⊹ z 9 ⊛ z 153 ⊛ z 1067 ⊹ z 10 ⊛ z 153 ⊛ z 1066 ⊹ d2 ⊛ z 9 ⊛ z 126 ⊛ z 1127 ⊝ z 148 ⊛ z
    1135 ⊝ d1 ⊛ z 145 ⊛ z 1061 ⊝ d1 ⊛ z 157 ⊛ z 1126 ⊝ d2 ⊛ z 154 ⊛ z 1127 ⊝ d3 ⊛ z 157 ⊛ z 1127 ⊝
    z 9 ⊛ z 145 ⊛ z 1135 ⊝ z 10 ⊛ z 126 ⊛ z 1135 ⊝ z 10 ⊛ z 151 ⊛ z 1067 ⊝ d1 ⊛ z 9 ⊛ z 148 ⊛ z
    1061 ⊝ d1 ⊛ z 10 ⊛ z 154 ⊛ z 1061 ⊝ d2 ⊛ z 10 ⊛ z 145 ⊛ z 1127 ⊝ d2 ⊛ z 29 ⊛ z 43 ⊛ z 153 ⊝ d3
    ⊛ z 29 ⊛ z 43 ⊛ z 140 ⊝ d3 ⊛ z 29 ⊛ z 43 ⊛ z 156 ⊝ d2 ⊛ z 10 ⊛ z 29 ⊛ z 43 ⊛ z 147)),
(2292, z 2291 ⊹ z 538 ⊛ z 2090 ⊹ z 544 ⊛ z 2099 ⊹ z 547 ⊛ z 2118 ⊹ z 549 ⊛ z 2100 ⊹ z 916 ⊛ z 1490
    ⊝ z 541 ⊛ z 2087 ⊝ z 912 ⊛ z 1187 ⊝ z 919 ⊛ z 1540 ⊝ z 927 ⊛ z 1576 ⊝ z 936 ⊛ z 1622),
(2293, z 1 ⊛ z 3 ⊛ z 1543 ⊝ z 1 ⊛ z 4 ⊛ q3p ⊝ z 2 ⊛ z 3 ⊛ q4p),
(2294, z 1 ⊛ z 4 ⊛ z 1543 ⊹ z 1 ⊛ z 3 ⊛ q3p ⊝ z 2 ⊛ z 4 ⊛ q4p),
(2295, z 3 ⊛ z 121 ⊛ q4p ⊹ z 4 ⊛ z 218 ⊛ q4p ⊹ z 4 ⊛ z 554 ⊝ z 2 ⊛ pow (z 3) 2 ⊛ q4p ⊝ z 2 ⊛ pow
    (z 4) 2 ⊛ q4p ⊝ z 3 ⊛ z 555 ⊝ z 3 ⊛ z 2293 ⊝ z 4 ⊛ z 2294),
(2296, z 2 ⊛ z 4 ⊛ q3p ⊝ z 2 ⊛ z 3 ⊛ z 1543 ⊝ z 1 ⊛ z 3 ⊛ q4p),
(2297, neg (z 2) ⊛ z 4 ⊛ z 1543 ⊝ z 1 ⊛ z 4 ⊛ q4p ⊝ z 2 ⊛ z 3 ⊛ q3p),
(2298, z 1 ⊛ pow (z 3) 2 ⊛ q4p ⊹ z 1 ⊛ pow (z 4) 2 ⊛ q4p ⊹ z 3 ⊛ z 558 ⊹ z 3 ⊛ z 2296 ⊹ z 4 ⊛ z
    2297 ⊝ z 3 ⊛ z 124 ⊛ q4p ⊝ z 4 ⊛ z 219 ⊛ q4p ⊝ z 4 ⊛ z 557),
(2299, (z 5 ⊛ z 8 ⊹ z 6 ⊛ z 7) ⊛ z 1578),
(2300, (z 5 ⊛ z 7 ⊝ z 6 ⊛ z 8) ⊛ z 1578),
(2301, rr ⊛ (z 60 ⊛ z 2299 ⊝ z 63 ⊛ z 2300 ⊝ z 54 ⊛ z 2165 ⊝ z 55 ⊛ z 2170 ⊝ z 1062 ⊛ z 560 ⊝ z
    1063 ⊛ z 561)),
(2302, z 4 ⊛ z 1064 ⊛ q4p ⊹ z 3 ⊛ z 2301 ⊹ z 4 ⊛ z 566 ⊝ z 3 ⊛ z 229 ⊛ q4p),
(2303, rr ⊛ (z 62 ⊛ z 2299 ⊹ z 65 ⊛ z 2300 ⊹ z 55 ⊛ z 2171 ⊹ z 7 ⊛ z 1156 ⊛ z 561 ⊝ z 54 ⊛ z 2167
    ⊝ z 8 ⊛ z 1156 ⊛ z 560)),
(2304, z 4 ⊛ z 1170 ⊛ q4p ⊝ z 3 ⊛ z 223 ⊛ q4p ⊝ z 3 ⊛ z 2303 ⊝ z 4 ⊛ z 564),
(2305, rr ⊛ (z 64 ⊛ z 2300 ⊹ z 43 ⊛ z 54 ⊛ z 2166 ⊹ z 43 ⊛ z 55 ⊛ z 2172 ⊹ z 43 ⊛ z 1141 ⊛ z 560 ⊝
    z 61 ⊛ z 2299 ⊝ z 43 ⊛ z 1142 ⊛ z 561)),
(2306, z 3 ⊛ z 2305 ⊝ z 3 ⊛ z 222 ⊛ q4p ⊝ z 4 ⊛ z 1143 ⊛ q4p ⊝ z 4 ⊛ z 562),
(2307, u1 ⊛ z 2295 ⊹ u2 ⊛ z 2298 ⊹ u4 ⊛ z 2302 ⊹ u5 ⊛ z 2304 ⊹ z 1197 ⊛ z 556 ⊹ z 1491 ⊛ z 559 ⊹ z
    1578 ⊛ z 565 ⊝ u3 ⊛ z 2306 ⊝ z 1543 ⊛ z 563),
(2308, z 1 ⊛ z 5 ⊛ z 1578 ⊹ z 1 ⊛ z 31 ⊛ z 1543 ⊹ z 1 ⊛ z 3 ⊛ z 5 ⊛ q3p ⊹ z 2 ⊛ z 2143 ⊝ z 2 ⊛ z 6
    ⊛ z 1543),
(2309, neg (z 1) ⊛ z 6 ⊛ z 1578 ⊝ z 1 ⊛ z 41 ⊛ z 1543 ⊝ z 2 ⊛ z 5 ⊛ z 1543 ⊝ z 1 ⊛ z 3 ⊛ z 6 ⊛ q3p
    ⊝ z 2 ⊛ z 2147),
(2310, z 2 ⊛ z 4 ⊛ z 9 ⊛ q7p ⊹ z 2 ⊛ z 3 ⊛ z 6 ⊛ z 10 ⊛ q7p ⊹ z 9 ⊛ z 2309 ⊝ z 10 ⊛ z 2293),
(2311, z 2 ⊛ z 3 ⊛ z 6 ⊛ z 9 ⊛ q7p ⊝ z 2 ⊛ z 4 ⊛ z 10 ⊛ q7p ⊝ z 9 ⊛ z 2293 ⊝ z 10 ⊛ z 2309),
(2312, z 5 ⊛ z 122 ⊛ z 1578 ⊹ z 6 ⊛ z 10 ⊛ z 238 ⊛ z 1578 ⊹ z 2 ⊛ z 3 ⊛ pow (z 5) 2 ⊛ q5p ⊹ z 6 ⊛
    z 2308 ⊹ z 23 ⊛ z 2310 ⊹ z 1181 ⊛ z 305 ⊝ z 6 ⊛ z 9 ⊛ z 233 ⊛ z 1578 ⊝ z 25 ⊛ z 2311 ⊝ z 1182
    ⊛ z 296),
(2313, z 1 ⊛ z 6 ⊛ z 1543 ⊹ z 2 ⊛ z 5 ⊛ z 1578 ⊹ z 2 ⊛ z 31 ⊛ z 1543 ⊹ z 2 ⊛ z 3 ⊛ z 5 ⊛ q3p ⊝ z 1
    ⊛ z 2143),
(2314, z 1 ⊛ z 5 ⊛ z 1543 ⊹ z 1 ⊛ z 2147 ⊝ z 2 ⊛ z 6 ⊛ z 1578 ⊝ z 2 ⊛ z 41 ⊛ z 1543 ⊝ z 2 ⊛ z 3 ⊛
    z 6 ⊛ q3p),
(2315, z 9 ⊛ z 2314 ⊹ z 10 ⊛ z 2296 ⊝ z 1 ⊛ z 4 ⊛ z 9 ⊛ q7p ⊝ z 1 ⊛ z 3 ⊛ z 6 ⊛ z 10 ⊛ q7p),
(2316, z 1 ⊛ z 4 ⊛ z 10 ⊛ q7p ⊹ z 9 ⊛ z 2296 ⊝ z 1 ⊛ z 3 ⊛ z 6 ⊛ z 9 ⊛ q7p ⊝ z 10 ⊛ z 2314),
(2317, z 5 ⊛ z 125 ⊛ z 1578 ⊹ z 6 ⊛ z 10 ⊛ z 239 ⊛ z 1578 ⊹ z 6 ⊛ z 2313 ⊹ z 23 ⊛ z 2315 ⊹ z 1120
    ⊛ z 296 ⊝ z 6 ⊛ z 9 ⊛ z 234 ⊛ z 1578 ⊝ z 1 ⊛ z 3 ⊛ pow (z 5) 2 ⊛ q5p ⊝ z 25 ⊛ z 2316 ⊝ z 1119
    ⊛ z 305),
(2318, z 5 ⊛ z 118 ⊛ z 1578 ⊹ rr ⊛ z 3 ⊛ z 5 ⊛ z 43 ⊛ q5p ⊝ z 6 ⊛ z 2244),
(2319, d1 ⊛ z 4 ⊛ z 43 ⊛ q4p ⊝ z 2318),
(2320, z 25 ⊛ z 2143 ⊹ z 3 ⊛ z 5 ⊛ z 296 ⊝ z 5 ⊛ z 29 ⊛ z 1578 ⊝ z 6 ⊛ z 10 ⊛ z 31 ⊛ z 1578 ⊝ z 5
    ⊛ z 69 ⊛ q5p ⊝ z 6 ⊛ z 2175),
(2321, z 23 ⊛ z 2175 ⊹ z 25 ⊛ z 2187 ⊹ z 66 ⊛ z 296 ⊹ z 69 ⊛ z 305 ⊝ z 6 ⊛ z 9 ⊛ z 29 ⊛ z 1578 ⊝ z
    6 ⊛ z 10 ⊛ z 27 ⊛ z 1578),
(2322, n 2 ⊛ z 33 ⊛ z 2320 ⊹ n 2 ⊛ z 34 ⊛ z 2321 ⊹ n 2 ⊛ z 1069 ⊛ z 579 ⊹ n 2 ⊛ z 1070 ⊛ z 580)]

/-- _mooreriderlean2012.py:4117-4223 -/
def part32 : List (ℕ × E) := [
(2323, (n 2 ⊛ z 33 ⊛ z 1071 ⊛ z 581 ⊘ z 35 ⊹ z 36 ⊛ (n 4 ⊛ z 36 ⊛ z 2320 ⊹ (z 33 ⊛ z 1071 ⊛ z 581
    ⊝ n 2 ⊛ z 33 ⊛ z 35 ⊛ z 2322 ⊝ n 2 ⊛ z 35 ⊛ z 1070 ⊛ z 581 ⊝ n 2 ⊛ z 35 ⊛ z 1071 ⊛ z 580) ⊘
    hpow (z 35) 3)) ⊘ pow (z 36) 3),
(2324, z 39 ⊛ z 43 ⊛ z 2186 ⊹ qt 1 ⊛ rf ⊛ z 82 ⊛ z 2323 ⊹ qt 2 ⊛ rf ⊛ z 29 ⊛ z 43 ⊛ z 584 ⊹ qt 2 ⊛
    rf ⊛ z 43 ⊛ z 1076 ⊛ z 313),
(2325, z 2319 ⊝ z 2324 ⊝ d3 ⊛ z 43 ⊛ z 2186),
(2326, neg (z 6) ⊛ z 118 ⊛ z 1578 ⊝ rr ⊛ z 3 ⊛ z 6 ⊛ z 43 ⊛ q5p ⊝ z 5 ⊛ z 2244),
(2327, z 10 ⊛ z 1067 ⊛ q7p ⊹ d2 ⊛ z 43 ⊛ z 2186 ⊹ d1 ⊛ z 10 ⊛ z 43 ⊛ z 2142 ⊝ z 9 ⊛ z 1066 ⊛ q7p ⊝
    z 9 ⊛ z 2326),
(2328, (n 2 ⊛ z 34 ⊛ z 1071 ⊛ z 581 ⊘ z 35 ⊹ z 36 ⊛ (n 4 ⊛ z 36 ⊛ z 2321 ⊹ (z 34 ⊛ z 1071 ⊛ z 581
    ⊝ n 2 ⊛ z 34 ⊛ z 35 ⊛ z 2322 ⊝ n 2 ⊛ z 35 ⊛ z 1069 ⊛ z 581 ⊝ n 2 ⊛ z 35 ⊛ z 1071 ⊛ z 579) ⊘
    hpow (z 35) 3)) ⊘ pow (z 36) 3),
(2329, z 40 ⊛ z 43 ⊛ z 2186 ⊹ qt 1 ⊛ rf ⊛ z 82 ⊛ z 2328 ⊹ qt 2 ⊛ rf ⊛ z 29 ⊛ z 43 ⊛ z 582 ⊹ qt 2 ⊛
    rf ⊛ z 43 ⊛ z 1072 ⊛ z 313),
(2330, z 43 ⊛ (d2 ⊛ z 2184 ⊝ d3 ⊛ z 2142)),
(2331, z 9 ⊛ z 1067 ⊛ q7p ⊹ z 10 ⊛ z 1066 ⊛ q7p ⊹ z 10 ⊛ z 2326 ⊹ d1 ⊛ z 9 ⊛ z 43 ⊛ z 2142 ⊝ z
    2330),
(2332, z 12 ⊛ z 40 ⊛ z 90 ⊛ z 1625 ⊹ z 12 ⊛ z 40 ⊛ z 43 ⊛ z 1078 ⊛ q8p ⊹ qt 2 ⊛ rf ⊛ z 12 ⊛ z 90 ⊛
    z 1072 ⊛ q8p ⊹ z 11 ⊛ z 39 ⊛ z 43 ⊛ z 2218 ⊹ qt 1 ⊛ rf ⊛ z 11 ⊛ z 94 ⊛ z 2323 ⊹ qt 2 ⊛ rf ⊛ z
    11 ⊛ z 43 ⊛ z 1076 ⊛ z 329 ⊹ qt 2 ⊛ rf ⊛ z 11 ⊛ z 43 ⊛ z 1077 ⊛ z 584 ⊝ z 11 ⊛ z 39 ⊛ z 90 ⊛ z
    1625 ⊝ z 11 ⊛ z 40 ⊛ z 94 ⊛ z 1625 ⊝ z 12 ⊛ z 39 ⊛ z 94 ⊛ z 1625 ⊝ z 11 ⊛ z 39 ⊛ z 43 ⊛ z 1078
    ⊛ q8p ⊝ z 11 ⊛ z 40 ⊛ z 43 ⊛ z 1077 ⊛ q8p ⊝ z 12 ⊛ z 39 ⊛ z 43 ⊛ z 1077 ⊛ q8p ⊝ qt 2 ⊛ rf ⊛ z
    11 ⊛ z 90 ⊛ z 1076 ⊛ q8p ⊝ qt 2 ⊛ rf ⊛ z 11 ⊛ z 94 ⊛ z 1072 ⊛ q8p ⊝ qt 2 ⊛ rf ⊛ z 12 ⊛ z 94 ⊛
    z 1076 ⊛ q8p ⊝ z 11 ⊛ z 40 ⊛ z 43 ⊛ z 2211 ⊝ z 12 ⊛ z 39 ⊛ z 43 ⊛ z 2211 ⊝ z 12 ⊛ z 40 ⊛ z 43
    ⊛ z 2218 ⊝ qt 1 ⊛ rf ⊛ z 11 ⊛ z 90 ⊛ z 2328 ⊝ qt 1 ⊛ rf ⊛ z 12 ⊛ z 90 ⊛ z 2323 ⊝ qt 1 ⊛ rf ⊛ z
    12 ⊛ z 94 ⊛ z 2328 ⊝ qt 2 ⊛ rf ⊛ z 11 ⊛ z 43 ⊛ z 1072 ⊛ z 324 ⊝ qt 2 ⊛ rf ⊛ z 11 ⊛ z 43 ⊛ z
    1078 ⊛ z 582 ⊝ qt 2 ⊛ rf ⊛ z 12 ⊛ z 43 ⊛ z 1072 ⊛ z 329 ⊝ qt 2 ⊛ rf ⊛ z 12 ⊛ z 43 ⊛ z 1076 ⊛ z
    324 ⊝ qt 2 ⊛ rf ⊛ z 12 ⊛ z 43 ⊛ z 1077 ⊛ z 582 ⊝ qt 2 ⊛ rf ⊛ z 12 ⊛ z 43 ⊛ z 1078 ⊛ z 584),
(2333, z 5 ⊛ z 262 ⊛ z 1578 ⊹ z 6 ⊛ z 10 ⊛ z 259 ⊛ z 1578 ⊹ z 5 ⊛ (z 1082 ⊝ z 1083) ⊛ q5p ⊹ z 6 ⊛
    z 2325 ⊹ (z 1068 ⊹ z 1073) ⊛ z 305 ⊹ z 23 ⊛ (z 2327 ⊹ z 2329) ⊝ z 6 ⊛ z 9 ⊛ z 257 ⊛ z 1578 ⊝
    (z 1075 ⊹ z 1079) ⊛ z 296 ⊝ z 25 ⊛ (z 2331 ⊹ z 2332)),
(2334, d1 ⊛ z 9 ⊛ z 1061 ⊛ q7p ⊹ d2 ⊛ z 2199 ⊹ d1 ⊛ z 10 ⊛ z 2148),
(2335, z 40 ⊛ z 2199 ⊹ qt 1 ⊛ rf ⊛ z 77 ⊛ z 2328 ⊹ qt 2 ⊛ rf ⊛ z 1072 ⊛ z 312 ⊹ qt 2 ⊛ rf ⊛ z 1127
    ⊛ z 582),
(2336, neg d1 ⊛ z 2156 ⊝ d3 ⊛ z 2199),
(2337, z 39 ⊛ z 2199 ⊹ qt 1 ⊛ rf ⊛ z 77 ⊛ z 2323 ⊹ qt 2 ⊛ rf ⊛ z 1076 ⊛ z 312 ⊹ qt 2 ⊛ rf ⊛ z 1127
    ⊛ z 584),
(2338, d3 ⊛ z 2188 ⊝ d2 ⊛ z 2177),
(2339, z 2338 ⊹ d1 ⊛ z 9 ⊛ z 2148 ⊝ d1 ⊛ z 10 ⊛ z 1061 ⊛ q7p),
(2340, z 12 ⊛ z 40 ⊛ z 92 ⊛ z 1625 ⊹ z 12 ⊛ z 40 ⊛ z 1138 ⊛ q8p ⊹ qt 2 ⊛ rf ⊛ z 12 ⊛ z 92 ⊛ z 1072
    ⊛ q8p ⊹ z 11 ⊛ z 39 ⊛ z 2215 ⊹ qt 1 ⊛ rf ⊛ z 11 ⊛ z 97 ⊛ z 2323 ⊹ qt 2 ⊛ rf ⊛ z 11 ⊛ z 1076 ⊛
    z 332 ⊹ qt 2 ⊛ rf ⊛ z 11 ⊛ z 1137 ⊛ z 584 ⊝ z 11 ⊛ z 39 ⊛ z 92 ⊛ z 1625 ⊝ z 11 ⊛ z 40 ⊛ z 97 ⊛
    z 1625 ⊝ z 12 ⊛ z 39 ⊛ z 97 ⊛ z 1625 ⊝ z 11 ⊛ z 39 ⊛ z 1138 ⊛ q8p ⊝ z 11 ⊛ z 40 ⊛ z 1137 ⊛ q8p
    ⊝ z 12 ⊛ z 39 ⊛ z 1137 ⊛ q8p ⊝ qt 2 ⊛ rf ⊛ z 11 ⊛ z 92 ⊛ z 1076 ⊛ q8p ⊝ qt 2 ⊛ rf ⊛ z 11 ⊛ z
    97 ⊛ z 1072 ⊛ q8p ⊝ qt 2 ⊛ rf ⊛ z 12 ⊛ z 97 ⊛ z 1076 ⊛ q8p ⊝ z 11 ⊛ z 40 ⊛ z 2208 ⊝ z 12 ⊛ z
    39 ⊛ z 2208 ⊝ z 12 ⊛ z 40 ⊛ z 2215 ⊝ qt 2 ⊛ rf ⊛ z 11 ⊛ z 1072 ⊛ z 326 ⊝ qt 2 ⊛ rf ⊛ z 11 ⊛ z
    1138 ⊛ z 582 ⊝ qt 2 ⊛ rf ⊛ z 12 ⊛ z 1072 ⊛ z 332 ⊝ qt 2 ⊛ rf ⊛ z 12 ⊛ z 1076 ⊛ z 326 ⊝ qt 2 ⊛
    rf ⊛ z 12 ⊛ z 1137 ⊛ z 582 ⊝ qt 2 ⊛ rf ⊛ z 12 ⊛ z 1138 ⊛ z 584 ⊝ qt 1 ⊛ rf ⊛ z 11 ⊛ z 92 ⊛ z
    2328 ⊝ qt 1 ⊛ rf ⊛ z 12 ⊛ z 92 ⊛ z 2323 ⊝ qt 1 ⊛ rf ⊛ z 12 ⊛ z 97 ⊛ z 2328),
(2341, z 5 ⊛ z 263 ⊛ z 1578 ⊹ z 6 ⊛ z 10 ⊛ z 261 ⊛ z 1578 ⊹ z 5 ⊛ (z 1128 ⊝ z 1129) ⊛ q5p ⊹ (z
    1130 ⊹ z 1131) ⊛ z 305 ⊹ z 23 ⊛ (z 2334 ⊹ z 2335) ⊹ z 6 ⊛ (z 2336 ⊝ z 2337) ⊝ z 6 ⊛ z 9 ⊛ z
    256 ⊛ z 1578 ⊝ (z 1136 ⊹ z 1139) ⊛ z 296 ⊝ z 25 ⊛ (z 2339 ⊹ z 2340)),
(2342, d1 ⊛ z 9 ⊛ z 1156 ⊛ q7p ⊹ d2 ⊛ z 2200 ⊹ d1 ⊛ z 10 ⊛ z 2149),
(2343, z 40 ⊛ z 2200 ⊹ qt 1 ⊛ rf ⊛ z 76 ⊛ z 2328 ⊹ qt 2 ⊛ rf ⊛ z 1072 ⊛ z 311 ⊹ qt 2 ⊛ rf ⊛ z 1153
    ⊛ z 582),
(2344, neg d1 ⊛ z 2157 ⊝ d3 ⊛ z 2200),
(2345, z 39 ⊛ z 2200 ⊹ qt 1 ⊛ rf ⊛ z 76 ⊛ z 2323 ⊹ qt 2 ⊛ rf ⊛ z 1076 ⊛ z 311 ⊹ qt 2 ⊛ rf ⊛ z 1153
    ⊛ z 584),
(2346, d3 ⊛ z 2191 ⊝ d2 ⊛ z 2180),
(2347, z 2346 ⊹ d1 ⊛ z 9 ⊛ z 2149 ⊝ d1 ⊛ z 10 ⊛ z 1156 ⊛ q7p),
(2348, z 12 ⊛ z 40 ⊛ z 91 ⊛ z 1625 ⊹ z 12 ⊛ z 40 ⊛ z 1164 ⊛ q8p ⊹ qt 2 ⊛ rf ⊛ z 12 ⊛ z 91 ⊛ z 1072
    ⊛ q8p ⊹ z 11 ⊛ z 39 ⊛ z 2216 ⊹ qt 1 ⊛ rf ⊛ z 11 ⊛ z 95 ⊛ z 2323 ⊹ qt 2 ⊛ rf ⊛ z 11 ⊛ z 1076 ⊛
    z 330 ⊹ qt 2 ⊛ rf ⊛ z 11 ⊛ z 1163 ⊛ z 584 ⊝ z 11 ⊛ z 39 ⊛ z 91 ⊛ z 1625 ⊝ z 11 ⊛ z 40 ⊛ z 95 ⊛
    z 1625 ⊝ z 12 ⊛ z 39 ⊛ z 95 ⊛ z 1625 ⊝ z 11 ⊛ z 39 ⊛ z 1164 ⊛ q8p ⊝ z 11 ⊛ z 40 ⊛ z 1163 ⊛ q8p
    ⊝ z 12 ⊛ z 39 ⊛ z 1163 ⊛ q8p ⊝ qt 2 ⊛ rf ⊛ z 11 ⊛ z 91 ⊛ z 1076 ⊛ q8p ⊝ qt 2 ⊛ rf ⊛ z 11 ⊛ z
    95 ⊛ z 1072 ⊛ q8p ⊝ qt 2 ⊛ rf ⊛ z 12 ⊛ z 95 ⊛ z 1076 ⊛ q8p ⊝ z 11 ⊛ z 40 ⊛ z 2209 ⊝ z 12 ⊛ z
    39 ⊛ z 2209 ⊝ z 12 ⊛ z 40 ⊛ z 2216 ⊝ qt 2 ⊛ rf ⊛ z 11 ⊛ z 1072 ⊛ z 325 ⊝ qt 2 ⊛ rf ⊛ z 11 ⊛ z
    1164 ⊛ z 582 ⊝ qt 2 ⊛ rf ⊛ z 12 ⊛ z 1072 ⊛ z 330 ⊝ qt 2 ⊛ rf ⊛ z 12 ⊛ z 1076 ⊛ z 325 ⊝ qt 2 ⊛
    rf ⊛ z 12 ⊛ z 1163 ⊛ z 582 ⊝ qt 2 ⊛ rf ⊛ z 12 ⊛ z 1164 ⊛ z 584 ⊝ qt 1 ⊛ rf ⊛ z 11 ⊛ z 91 ⊛ z
    2328 ⊝ qt 1 ⊛ rf ⊛ z 12 ⊛ z 91 ⊛ z 2323 ⊝ qt 1 ⊛ rf ⊛ z 12 ⊛ z 95 ⊛ z 2328),
(2349, z 5 ⊛ z 264 ⊛ z 1578 ⊹ z 6 ⊛ z 10 ⊛ z 260 ⊛ z 1578 ⊹ z 5 ⊛ (z 1154 ⊝ z 1155) ⊛ q5p ⊹ (z
    1157 ⊹ z 1158) ⊛ z 305 ⊹ z 23 ⊛ (z 2342 ⊹ z 2343) ⊹ z 6 ⊛ (z 2344 ⊝ z 2345) ⊝ z 6 ⊛ z 9 ⊛ z
    255 ⊛ z 1578 ⊝ (z 1162 ⊹ z 1165) ⊛ z 296 ⊝ z 25 ⊛ (z 2347 ⊹ z 2348)),
(2350, qt 1 ⊛ rf ⊛ z 23 ⊛ z 83 ⊛ z 2328 ⊹ qt 2 ⊛ rf ⊛ z 83 ⊛ z 1072 ⊛ z 305 ⊝ z 5 ⊛ z 250 ⊛ z 1578
    ⊝ z 6 ⊛ z 9 ⊛ z 254 ⊛ z 1578 ⊝ qt 2 ⊛ rf ⊛ z 5 ⊛ z 83 ⊛ z 1076 ⊛ q5p ⊝ qt 1 ⊛ rf ⊛ z 6 ⊛ z 83
    ⊛ z 2323),
(2351, d3 ⊛ z 2192 ⊝ d2 ⊛ z 2183),
(2352, z 12 ⊛ z 40 ⊛ z 93 ⊛ z 1625 ⊹ z 12 ⊛ z 40 ⊛ z 1193 ⊛ q8p ⊹ qt 2 ⊛ rf ⊛ z 12 ⊛ z 93 ⊛ z 1072
    ⊛ q8p ⊹ z 11 ⊛ z 39 ⊛ z 2217 ⊹ qt 1 ⊛ rf ⊛ z 11 ⊛ z 96 ⊛ z 2323 ⊹ qt 2 ⊛ rf ⊛ z 11 ⊛ z 1076 ⊛
    z 331 ⊹ qt 2 ⊛ rf ⊛ z 11 ⊛ z 1192 ⊛ z 584 ⊝ z 11 ⊛ z 39 ⊛ z 93 ⊛ z 1625 ⊝ z 11 ⊛ z 40 ⊛ z 96 ⊛
    z 1625 ⊝ z 12 ⊛ z 39 ⊛ z 96 ⊛ z 1625 ⊝ z 11 ⊛ z 39 ⊛ z 1193 ⊛ q8p ⊝ z 11 ⊛ z 40 ⊛ z 1192 ⊛ q8p
    ⊝ z 12 ⊛ z 39 ⊛ z 1192 ⊛ q8p ⊝ qt 2 ⊛ rf ⊛ z 11 ⊛ z 93 ⊛ z 1076 ⊛ q8p ⊝ qt 2 ⊛ rf ⊛ z 11 ⊛ z
    96 ⊛ z 1072 ⊛ q8p ⊝ qt 2 ⊛ rf ⊛ z 12 ⊛ z 96 ⊛ z 1076 ⊛ q8p ⊝ z 11 ⊛ z 40 ⊛ z 2210 ⊝ z 12 ⊛ z
    39 ⊛ z 2210 ⊝ z 12 ⊛ z 40 ⊛ z 2217 ⊝ qt 2 ⊛ rf ⊛ z 11 ⊛ z 1072 ⊛ z 327 ⊝ qt 2 ⊛ rf ⊛ z 11 ⊛ z
    1193 ⊛ z 582 ⊝ qt 2 ⊛ rf ⊛ z 12 ⊛ z 1072 ⊛ z 331 ⊝ qt 2 ⊛ rf ⊛ z 12 ⊛ z 1076 ⊛ z 327 ⊝ qt 2 ⊛
    rf ⊛ z 12 ⊛ z 1192 ⊛ z 582 ⊝ qt 2 ⊛ rf ⊛ z 12 ⊛ z 1193 ⊛ z 584 ⊝ qt 1 ⊛ rf ⊛ z 11 ⊛ z 93 ⊛ z
    2328 ⊝ qt 1 ⊛ rf ⊛ z 12 ⊛ z 93 ⊛ z 2323 ⊝ qt 1 ⊛ rf ⊛ z 12 ⊛ z 96 ⊛ z 2328),
(2353, (z 1191 ⊹ z 1194) ⊛ z 296 ⊹ z 25 ⊛ (z 2351 ⊹ z 2352) ⊝ z 6 ⊛ z 10 ⊛ z 258 ⊛ z 1578),
(2354, u1 ⊛ z 2312 ⊹ u2 ⊛ z 2317 ⊹ u3 ⊛ z 2333 ⊹ u4 ⊛ z 2341 ⊹ u5 ⊛ z 2349 ⊹ u8 ⊛ z 2350 ⊹ z 1197
    ⊛ z 573 ⊹ z 1491 ⊛ z 578 ⊹ z 1543 ⊛ z 616 ⊹ z 1578 ⊛ z 594 ⊹ z 1625 ⊛ z 586 ⊝ u7 ⊛ z 2353),
(2355, z 2244 ⊝ rr ⊛ z 4 ⊛ z 43 ⊛ q4p),
(2356, z 1 ⊛ u2 ⊛ z 1543 ⊹ z 1 ⊛ z 1491 ⊛ q3p ⊹ u3 ⊛ z 2355 ⊹ z 1543 ⊛ z 552 ⊹ rr ⊛ u4 ⊛ z 2156 ⊹
    rr ⊛ u5 ⊛ z 2157 ⊹ rr ⊛ z 1578 ⊛ z 275 ⊝ z 2 ⊛ u1 ⊛ z 1543 ⊝ z 2 ⊛ z 1197 ⊛ q3p),
(2357, z 25 ⊛ z 2320 ⊹ z 1070 ⊛ z 296 ⊝ z 6 ⊛ z 10 ⊛ z 33 ⊛ z 1578),
(2358, (qt 6 ⊛ z 416 ⊛ z 1071 ⊛ z 581 ⊹ z 35 ⊛ (n 2 ⊛ z 35 ⊛ z 2357 ⊝ z 416 ⊛ z 2322 ⊝ z 1071 ⊛ z
    630 ⊝ z 25 ⊛ z 1070 ⊛ z 581)) ⊘ hpow (z 35) 5)]

/-- _mooreriderlean2012.py:4224-4313 -/
def part33 : List (ℕ × E) := [
(2359, (n 2 ⊛ z 1071 ⊛ (z 36 ⊛ (z 33 ⊛ z 631 ⊹ n 2 ⊛ z 420 ⊛ z 580) ⊹ (z 25 ⊛ z 36 ⊝ n 3 ⊛ z 33 ⊛
    z 420) ⊛ z 581 ⊘ hpow (z 35) 1) ⊘ hpow (z 35) 1 ⊹ z 36 ⊛ (n 2 ⊛ z 36 ⊛ (z 1094 ⊛ z 580 ⊝ n 2 ⊛
    z 6 ⊛ z 10 ⊛ z 36 ⊛ z 1578 ⊝ n 2 ⊛ z 420 ⊛ z 2320 ⊝ z 33 ⊛ z 2358 ⊝ z 1070 ⊛ z 631 ⊝ z 1071 ⊛
    z 296 ⊘ hpow (z 35) 1) ⊝ (n 2 ⊛ z 35 ⊛ (z 25 ⊛ z 36 ⊝ n 2 ⊛ z 33 ⊛ z 420) ⊛ z 2322 ⊹ n 2 ⊛ z
    35 ⊛ (z 33 ⊛ z 1094 ⊝ n 2 ⊛ z 420 ⊛ z 1070) ⊛ z 581 ⊝ z 1071 ⊛ (z 25 ⊛ z 36 ⊝ n 2 ⊛ z 33 ⊛ z
    420) ⊛ z 581) ⊘ hpow (z 35) 3)) ⊘ pow (z 36) 4),
(2360, (z 34 ⊛ z 1071 ⊛ (z 36 ⊛ z 631 ⊝ n 3 ⊛ z 420 ⊛ z 581 ⊘ hpow (z 35) 1) ⊘ hpow (z 35) 1 ⊹ z
    36 ⊛ (z 36 ⊛ z 1094 ⊛ z 579 ⊝ n 2 ⊛ z 36 ⊛ z 420 ⊛ z 2321 ⊝ z 34 ⊛ z 36 ⊛ z 2358 ⊝ z 36 ⊛ z
    1069 ⊛ z 631 ⊝ (z 34 ⊛ z 35 ⊛ z 1094 ⊛ z 581 ⊹ z 34 ⊛ z 420 ⊛ z 1071 ⊛ z 581 ⊝ n 2 ⊛ z 34 ⊛ z
    35 ⊛ z 420 ⊛ z 2322 ⊝ n 2 ⊛ z 35 ⊛ z 420 ⊛ z 1069 ⊛ z 581 ⊝ n 2 ⊛ z 35 ⊛ z 420 ⊛ z 1071 ⊛ z
    579) ⊘ hpow (z 35) 3)) ⊘ pow (z 36) 4),
(2361, z 443 ⊛ z 2184 ⊹ qt 1 ⊛ rf ⊛ z 28 ⊛ z 2359 ⊹ qt 2 ⊛ rf ⊛ z 32 ⊛ z 2360 ⊹ qt 2 ⊛ rf ⊛ z 1095
    ⊛ z 308 ⊹ qt 2 ⊛ rf ⊛ z 4 ⊛ z 5 ⊛ z 633 ⊝ z 434 ⊛ z 2142 ⊝ qt 2 ⊛ rf ⊛ z 27 ⊛ z 632 ⊝ qt 2 ⊛
    rf ⊛ z 1096 ⊛ z 268),
(2362, z 25 ⊛ z 2321 ⊹ z 1069 ⊛ z 296 ⊝ z 6 ⊛ z 10 ⊛ z 34 ⊛ z 1578),
(2363, (qt 6 ⊛ z 412 ⊛ z 1071 ⊛ z 581 ⊹ z 35 ⊛ (n 2 ⊛ z 35 ⊛ z 2362 ⊝ z 412 ⊛ z 2322 ⊝ z 1071 ⊛ z
    635 ⊝ z 25 ⊛ z 1069 ⊛ z 581)) ⊘ hpow (z 35) 5),
(2364, (z 33 ⊛ z 1071 ⊛ (z 36 ⊛ z 636 ⊝ n 3 ⊛ z 418 ⊛ z 581 ⊘ hpow (z 35) 1) ⊘ hpow (z 35) 1 ⊹ z
    36 ⊛ (z 36 ⊛ z 1090 ⊛ z 580 ⊝ n 2 ⊛ z 36 ⊛ z 418 ⊛ z 2320 ⊝ z 33 ⊛ z 36 ⊛ z 2363 ⊝ z 36 ⊛ z
    1070 ⊛ z 636 ⊝ (z 33 ⊛ z 35 ⊛ z 1090 ⊛ z 581 ⊹ z 33 ⊛ z 418 ⊛ z 1071 ⊛ z 581 ⊝ n 2 ⊛ z 33 ⊛ z
    35 ⊛ z 418 ⊛ z 2322 ⊝ n 2 ⊛ z 35 ⊛ z 418 ⊛ z 1070 ⊛ z 581 ⊝ n 2 ⊛ z 35 ⊛ z 418 ⊛ z 1071 ⊛ z
    580) ⊘ hpow (z 35) 3)) ⊘ pow (z 36) 4),
(2365, (n 2 ⊛ z 1071 ⊛ (z 36 ⊛ (z 34 ⊛ z 636 ⊹ n 2 ⊛ z 418 ⊛ z 579) ⊹ (z 25 ⊛ z 36 ⊝ n 3 ⊛ z 34 ⊛
    z 418) ⊛ z 581 ⊘ hpow (z 35) 1) ⊘ hpow (z 35) 1 ⊹ z 36 ⊛ (n 2 ⊛ z 36 ⊛ (z 1090 ⊛ z 579 ⊝ n 2 ⊛
    z 6 ⊛ z 10 ⊛ z 36 ⊛ z 1578 ⊝ n 2 ⊛ z 418 ⊛ z 2321 ⊝ z 34 ⊛ z 2363 ⊝ z 1069 ⊛ z 636 ⊝ z 1071 ⊛
    z 296 ⊘ hpow (z 35) 1) ⊝ (n 2 ⊛ z 35 ⊛ (z 25 ⊛ z 36 ⊝ n 2 ⊛ z 34 ⊛ z 418) ⊛ z 2322 ⊹ n 2 ⊛ z
    35 ⊛ (z 34 ⊛ z 1090 ⊝ n 2 ⊛ z 418 ⊛ z 1069) ⊛ z 581 ⊝ z 1071 ⊛ (z 25 ⊛ z 36 ⊝ n 2 ⊛ z 34 ⊛ z
    418) ⊛ z 581) ⊘ hpow (z 35) 3)) ⊘ pow (z 36) 4),
(2366, z 432 ⊛ z 2142 ⊹ qt 1 ⊛ rf ⊛ z 32 ⊛ z 2365 ⊹ qt 2 ⊛ rf ⊛ z 28 ⊛ z 2364 ⊹ qt 2 ⊛ rf ⊛ z 1091
    ⊛ z 268 ⊹ qt 2 ⊛ rf ⊛ z 4 ⊛ z 5 ⊛ z 637 ⊝ z 444 ⊛ z 2184 ⊝ qt 2 ⊛ rf ⊛ z 27 ⊛ z 638 ⊝ qt 2 ⊛
    rf ⊛ z 1092 ⊛ z 308),
(2367, n 2 ⊛ z 23 ⊛ z 2321 ⊹ n 2 ⊛ z 1069 ⊛ z 305 ⊝ n 2 ⊛ z 5 ⊛ z 33 ⊛ z 1578 ⊝ n 2 ⊛ z 6 ⊛ z 9 ⊛
    z 34 ⊛ z 1578 ⊝ n 2 ⊛ z 5 ⊛ z 1070 ⊛ q5p ⊝ n 2 ⊛ z 6 ⊛ z 2320),
(2368, (qt 6 ⊛ z 411 ⊛ z 1071 ⊛ z 581 ⊹ z 35 ⊛ (n 2 ⊛ z 35 ⊛ z 2367 ⊝ z 411 ⊛ z 2322 ⊝ z 1071 ⊛ z
    640 ⊝ z 1108 ⊛ z 581)) ⊘ hpow (z 35) 5),
(2369, (z 1071 ⊛ (n 3 ⊛ z 33 ⊛ z 421 ⊛ z 581 ⊘ hpow (z 35) 1 ⊝ z 36 ⊛ (n 2 ⊛ z 5 ⊛ z 36 ⊛ q5p ⊹ z
    33 ⊛ z 641 ⊹ n 2 ⊛ z 421 ⊛ z 580 ⊝ n 2 ⊛ z 6 ⊛ z 581 ⊘ hpow (z 35) 1)) ⊘ hpow (z 35) 1 ⊹ z 36
    ⊛ ((z 33 ⊛ z 421 ⊛ z 1071 ⊛ z 581 ⊝ n 2 ⊛ z 33 ⊛ z 35 ⊛ z 421 ⊛ z 2322 ⊝ n 2 ⊛ z 35 ⊛ z 421 ⊛
    z 1070 ⊛ z 581 ⊝ z 33 ⊛ z 35 ⊛ z 1109 ⊛ z 581) ⊘ hpow (z 35) 3 ⊹ z 36 ⊛ (n 4 ⊛ z 5 ⊛ z 36 ⊛ z
    1578 ⊹ z 33 ⊛ z 2368 ⊹ z 1070 ⊛ z 641 ⊹ z 1109 ⊛ z 580 ⊹ n 2 ⊛ z 421 ⊛ z 2320 ⊝ z 6 ⊛ (n 2 ⊛ z
    35 ⊛ z 2322 ⊝ z 1071 ⊛ z 581) ⊘ hpow (z 35) 3))) ⊘ pow (z 36) 4),
(2370, (n 3 ⊛ z 34 ⊛ z 421 ⊛ z 1071 ⊛ z 581 ⊘ z 35 ⊹ z 36 ⊛ (z 36 ⊛ (n 4 ⊛ z 6 ⊛ z 9 ⊛ z 36 ⊛ z
    1578 ⊹ z 34 ⊛ z 2368 ⊹ z 1069 ⊛ z 641 ⊹ z 1109 ⊛ z 579 ⊹ n 2 ⊛ z 421 ⊛ z 2321 ⊹ n 2 ⊛ z 1071 ⊛
    z 305 ⊘ hpow (z 35) 1) ⊹ (n 2 ⊛ z 35 ⊛ (z 23 ⊛ z 36 ⊝ z 34 ⊛ z 421) ⊛ z 2322 ⊝ z 35 ⊛ z 1071 ⊛
    (z 34 ⊛ z 641 ⊹ n 2 ⊛ z 421 ⊛ z 579) ⊝ z 1071 ⊛ (z 23 ⊛ z 36 ⊝ z 34 ⊛ z 421) ⊛ z 581 ⊝ z 35 ⊛
    (z 34 ⊛ z 1109 ⊹ n 2 ⊛ z 421 ⊛ z 1069 ⊹ n 2 ⊛ z 23 ⊛ z 1071 ⊘ hpow (z 35) 1) ⊛ z 581) ⊘ hpow
    (z 35) 3)) ⊘ pow (z 36) 4),
(2371, qt 2 ⊛ z 430 ⊛ z 2142 ⊹ qt 1 ⊛ rf ⊛ z 27 ⊛ z 643 ⊹ qt 1 ⊛ rf ⊛ z 1111 ⊛ z 308 ⊹ qt 1 ⊛ rf ⊛
    z 4 ⊛ z 5 ⊛ z 642 ⊝ qt 2 ⊛ z 446 ⊛ z 2184 ⊝ qt 1 ⊛ rf ⊛ z 28 ⊛ z 2369 ⊝ qt 1 ⊛ rf ⊛ z 32 ⊛ z
    2370 ⊝ qt 1 ⊛ rf ⊛ z 1110 ⊛ z 268),
(2372, d1 ⊛ z 4 ⊛ z 5 ⊛ z 1578 ⊹ z 4 ⊛ z 6 ⊛ z 448 ⊛ z 1578 ⊹ d1 ⊛ z 3 ⊛ z 5 ⊛ q5p ⊹ z 3 ⊛ z 6 ⊛ z
    448 ⊛ q5p ⊹ z 4 ⊛ z 5 ⊛ z 448 ⊛ q4p ⊹ z 4 ⊛ z 6 ⊛ z 455 ⊛ q5p ⊹ qt 2 ⊛ rf ⊛ z 4 ⊛ z 6 ⊛ z 1072
    ⊛ q5p ⊹ z 3 ⊛ z 5 ⊛ z 2361 ⊹ (z 3 ⊛ z 24 ⊝ z 4 ⊛ z 10) ⊛ z 2366 ⊹ qt 1 ⊛ rf ⊛ (z 3 ⊛ z 10 ⊹ z
    4 ⊛ z 24) ⊛ z 2323 ⊹ qt 2 ⊛ rf ⊛ (z 3 ⊛ z 24 ⊝ z 4 ⊛ z 10) ⊛ z 584 ⊹ z 1112 ⊛ (z 4 ⊛ z 10 ⊛
    q7p ⊹ z 4 ⊛ z 26 ⊛ q4p ⊝ z 3 ⊛ z 9 ⊛ q4p ⊝ z 3 ⊛ z 295) ⊹ z 453 ⊛ (z 3 ⊛ z 5 ⊛ z 9 ⊛ z 1578 ⊹
    z 4 ⊛ z 10 ⊛ q4p ⊝ z 3 ⊛ z 9 ⊛ q7p ⊝ z 3 ⊛ z 24 ⊛ q4p ⊝ z 4 ⊛ z 303) ⊝ z 3 ⊛ z 6 ⊛ z 455 ⊛ z
    1578 ⊝ rr ⊛ z 4 ⊛ q4p ⊝ d1 ⊛ z 4 ⊛ z 6 ⊛ q4p ⊝ z 3 ⊛ z 5 ⊛ z 455 ⊛ q4p ⊝ z 3 ⊛ z 6 ⊛ z 1097 ⊛
    q5p ⊝ z 4 ⊛ z 5 ⊛ z 1097 ⊛ q4p ⊝ qt 2 ⊛ rf ⊛ z 3 ⊛ z 5 ⊛ z 1072 ⊛ q4p ⊝ z 4 ⊛ z 5 ⊛ z 634 ⊝ qt
    2 ⊛ rf ⊛ z 3 ⊛ z 5 ⊛ z 582 ⊝ qt 1 ⊛ rf ⊛ z 4 ⊛ z 5 ⊛ z 2328 ⊝ (z 3 ⊛ z 10 ⊹ z 4 ⊛ z 24) ⊛ z
    639 ⊝ (z 3 ⊛ z 26 ⊹ z 4 ⊛ z 9) ⊛ z 2371 ⊝ (z 3 ⊛ z 9 ⊝ z 4 ⊛ z 26) ⊛ z 644 ⊝ z 1093 ⊛ (z 3 ⊛ z
    10 ⊛ q4p ⊹ z 4 ⊛ z 9 ⊛ q7p ⊹ z 4 ⊛ z 24 ⊛ q4p ⊝ z 3 ⊛ z 303) ⊝ qt 2 ⊛ rf ⊛ z 1076 ⊛ (z 4 ⊛ z
    10 ⊛ q4p ⊝ z 3 ⊛ z 9 ⊛ q7p ⊝ z 3 ⊛ z 24 ⊛ q4p ⊝ z 4 ⊛ z 303) ⊝ z 449 ⊛ (z 3 ⊛ z 10 ⊛ q4p ⊹ z 4
    ⊛ z 9 ⊛ q7p ⊹ z 4 ⊛ z 24 ⊛ q4p ⊝ z 4 ⊛ z 5 ⊛ z 9 ⊛ z 1578 ⊝ z 3 ⊛ z 303) ⊝ z 451 ⊛ (z 3 ⊛ z 5
    ⊛ z 10 ⊛ z 1578 ⊝ z 3 ⊛ z 10 ⊛ q7p ⊝ z 3 ⊛ z 26 ⊛ q4p ⊝ z 4 ⊛ z 9 ⊛ q4p ⊝ z 4 ⊛ z 295)),
(2373, z 5 ⊛ z 2175 ⊝ z 6 ⊛ z 29 ⊛ z 1578 ⊝ z 6 ⊛ z 69 ⊛ q5p),
(2374, z 33 ⊛ z 2373 ⊹ z 410 ⊛ z 2320 ⊹ z 1070 ⊛ z 646 ⊹ z 5 ⊛ z 69 ⊛ z 580),
(2375, (qt 6 ⊛ z 415 ⊛ z 1071 ⊛ z 581 ⊹ z 35 ⊛ (n 2 ⊛ z 35 ⊛ z 2374 ⊝ z 415 ⊛ z 2322 ⊝ z 1071 ⊛ z
    647 ⊝ z 1085 ⊛ z 581)) ⊘ hpow (z 35) 5),
(2376, (n 3 ⊛ z 34 ⊛ z 417 ⊛ z 1071 ⊛ z 581 ⊘ z 35 ⊹ z 36 ⊛ (z 34 ⊛ z 36 ⊛ z 2375 ⊹ z 36 ⊛ z 1069
    ⊛ z 648 ⊹ z 36 ⊛ z 1086 ⊛ z 579 ⊹ n 2 ⊛ z 36 ⊛ z 417 ⊛ z 2321 ⊹ (z 34 ⊛ z 417 ⊛ z 1071 ⊛ z 581
    ⊝ n 2 ⊛ z 34 ⊛ z 35 ⊛ z 417 ⊛ z 2322 ⊝ n 2 ⊛ z 35 ⊛ z 417 ⊛ z 1069 ⊛ z 581 ⊝ n 2 ⊛ z 35 ⊛ z
    417 ⊛ z 1071 ⊛ z 579 ⊝ z 34 ⊛ z 35 ⊛ z 1071 ⊛ z 648 ⊝ z 34 ⊛ z 35 ⊛ z 1086 ⊛ z 581) ⊘ hpow (z
    35) 3)) ⊘ pow (z 36) 4),
(2377, (n 2 ⊛ z 1071 ⊛ (n 3 ⊛ z 33 ⊛ z 417 ⊛ z 581 ⊘ hpow (z 35) 1 ⊹ z 36 ⊛ (z 36 ⊛ z 646 ⊝ n 2 ⊛
    z 417 ⊛ z 580 ⊝ z 410 ⊛ z 581 ⊘ hpow (z 35) 1)) ⊘ hpow (z 35) 1 ⊹ z 36 ⊛ (n 2 ⊛ (z 33 ⊛ z 417
    ⊛ z 1071 ⊛ z 581 ⊝ n 2 ⊛ z 33 ⊛ z 35 ⊛ z 417 ⊛ z 2322 ⊝ n 2 ⊛ z 35 ⊛ z 417 ⊛ z 1070 ⊛ z 581 ⊝
    z 33 ⊛ z 35 ⊛ z 1071 ⊛ z 648 ⊝ z 33 ⊛ z 35 ⊛ z 1086 ⊛ z 581) ⊘ hpow (z 35) 3 ⊹ z 36 ⊛ (n 2 ⊛ z
    33 ⊛ z 2375 ⊹ n 2 ⊛ z 1070 ⊛ z 648 ⊹ n 2 ⊛ z 1086 ⊛ z 580 ⊹ n 4 ⊛ z 417 ⊛ z 2320 ⊝ n 4 ⊛ z 36
    ⊛ z 2373 ⊝ (z 410 ⊛ z 1071 ⊛ z 581 ⊝ n 2 ⊛ z 35 ⊛ z 410 ⊛ z 2322 ⊝ n 2 ⊛ z 5 ⊛ z 35 ⊛ z 69 ⊛ z
    581) ⊘ hpow (z 35) 3))) ⊘ pow (z 36) 4),
(2378, z 429 ⊛ z 2142 ⊹ z 441 ⊛ z 2184 ⊹ qt 1 ⊛ rf ⊛ z 28 ⊛ z 2377 ⊹ qt 2 ⊛ rf ⊛ z 32 ⊛ z 2376 ⊹
    qt 2 ⊛ rf ⊛ z 1088 ⊛ z 268 ⊝ qt 2 ⊛ rf ⊛ z 27 ⊛ z 649 ⊝ qt 2 ⊛ rf ⊛ z 1087 ⊛ z 308 ⊝ qt 2 ⊛ rf
    ⊛ z 4 ⊛ z 5 ⊛ z 650),
(2379, z 29 ⊛ z 2321 ⊹ z 34 ⊛ z 2175 ⊹ z 69 ⊛ z 579 ⊹ z 1069 ⊛ z 300),
(2380, (qt 6 ⊛ z 414 ⊛ z 1071 ⊛ z 581 ⊹ z 35 ⊛ (n 2 ⊛ z 35 ⊛ z 2379 ⊝ z 414 ⊛ z 2322 ⊝ z 1071 ⊛ z
    652 ⊝ z 1098 ⊛ z 581)) ⊘ hpow (z 35) 5)]

/-- _mooreriderlean2012.py:4314-4402 -/
def part34 : List (ℕ × E) := [
(2381, (n 3 ⊛ z 33 ⊛ z 419 ⊛ z 1071 ⊛ z 581 ⊘ z 35 ⊹ z 36 ⊛ (z 33 ⊛ z 36 ⊛ z 2380 ⊹ z 36 ⊛ z 1070
    ⊛ z 653 ⊹ z 36 ⊛ z 1099 ⊛ z 580 ⊹ n 2 ⊛ z 36 ⊛ z 419 ⊛ z 2320 ⊹ (z 33 ⊛ z 419 ⊛ z 1071 ⊛ z 581
    ⊝ n 2 ⊛ z 33 ⊛ z 35 ⊛ z 419 ⊛ z 2322 ⊝ n 2 ⊛ z 35 ⊛ z 419 ⊛ z 1070 ⊛ z 581 ⊝ n 2 ⊛ z 35 ⊛ z
    419 ⊛ z 1071 ⊛ z 580 ⊝ z 33 ⊛ z 35 ⊛ z 1071 ⊛ z 653 ⊝ z 33 ⊛ z 35 ⊛ z 1099 ⊛ z 581) ⊘ hpow (z
    35) 3)) ⊘ pow (z 36) 4),
(2382, (n 2 ⊛ z 1071 ⊛ (z 36 ⊛ (z 34 ⊛ z 653 ⊹ n 2 ⊛ z 419 ⊛ z 579) ⊹ (z 29 ⊛ z 36 ⊝ n 3 ⊛ z 34 ⊛
    z 419) ⊛ z 581 ⊘ hpow (z 35) 1) ⊘ hpow (z 35) 1 ⊹ z 36 ⊛ (n 2 ⊛ z 36 ⊛ (n 2 ⊛ z 36 ⊛ z 2175 ⊝
    n 2 ⊛ z 419 ⊛ z 2321 ⊝ z 34 ⊛ z 2380 ⊝ z 1069 ⊛ z 653 ⊝ z 1099 ⊛ z 579 ⊝ z 1071 ⊛ z 300 ⊘ hpow
    (z 35) 1) ⊹ (z 1071 ⊛ (z 29 ⊛ z 36 ⊝ n 2 ⊛ z 34 ⊛ z 419) ⊛ z 581 ⊝ n 2 ⊛ z 35 ⊛ (z 29 ⊛ z 36 ⊝
    n 2 ⊛ z 34 ⊛ z 419) ⊛ z 2322 ⊝ n 2 ⊛ z 35 ⊛ (z 36 ⊛ z 69 ⊝ n 2 ⊛ z 419 ⊛ z 1069 ⊝ z 34 ⊛ z
    1099) ⊛ z 581) ⊘ hpow (z 35) 3)) ⊘ pow (z 36) 4),
(2383, z 433 ⊛ z 2142 ⊹ qt 1 ⊛ rf ⊛ z 32 ⊛ z 2382 ⊹ qt 2 ⊛ rf ⊛ z 4 ⊛ z 5 ⊛ z 654 ⊝ z 445 ⊛ z 2184
    ⊝ qt 2 ⊛ rf ⊛ z 27 ⊛ z 655 ⊝ qt 2 ⊛ rf ⊛ z 28 ⊛ z 2381 ⊝ qt 2 ⊛ rf ⊛ z 1100 ⊛ z 268 ⊝ qt 2 ⊛
    rf ⊛ z 1101 ⊛ z 308),
(2384, n 2 ⊛ z 27 ⊛ z 2321 ⊹ n 2 ⊛ z 31 ⊛ z 2320 ⊹ n 2 ⊛ z 33 ⊛ z 2143 ⊹ n 2 ⊛ z 34 ⊛ z 2187 ⊹ n 2
    ⊛ z 66 ⊛ z 579 ⊹ n 2 ⊛ z 1069 ⊛ z 310 ⊹ n 2 ⊛ z 1070 ⊛ z 269 ⊹ n 2 ⊛ z 3 ⊛ z 5 ⊛ z 580),
(2385, (qt 6 ⊛ z 413 ⊛ z 1071 ⊛ z 581 ⊹ z 35 ⊛ (n 2 ⊛ z 35 ⊛ z 2384 ⊝ z 413 ⊛ z 2322 ⊝ z 1071 ⊛ z
    657 ⊝ z 1103 ⊛ z 581)) ⊘ hpow (z 35) 5),
(2386, (z 1071 ⊛ (z 36 ⊛ (z 33 ⊛ z 658 ⊹ n 2 ⊛ z 422 ⊛ z 580) ⊹ n 2 ⊛ (z 31 ⊛ z 36 ⊝ qt 6 ⊛ z 33 ⊛
    z 422) ⊛ z 581 ⊘ hpow (z 35) 1) ⊘ hpow (z 35) 1 ⊹ z 36 ⊛ (z 36 ⊛ (n 4 ⊛ z 36 ⊛ z 2143 ⊝ n 2 ⊛
    z 422 ⊛ z 2320 ⊝ z 33 ⊛ z 2385 ⊝ z 1070 ⊛ z 658 ⊝ z 1104 ⊛ z 580 ⊝ n 2 ⊛ z 1071 ⊛ z 269 ⊘ hpow
    (z 35) 1) ⊝ (n 2 ⊛ z 35 ⊛ (z 31 ⊛ z 36 ⊝ z 33 ⊛ z 422) ⊛ z 2322 ⊝ z 1071 ⊛ (z 31 ⊛ z 36 ⊝ z 33
    ⊛ z 422) ⊛ z 581 ⊝ z 35 ⊛ (z 33 ⊛ z 1104 ⊹ n 2 ⊛ z 422 ⊛ z 1070 ⊝ n 2 ⊛ z 3 ⊛ z 5 ⊛ z 36) ⊛ z
    581) ⊘ hpow (z 35) 3)) ⊘ pow (z 36) 4),
(2387, (z 1071 ⊛ (z 36 ⊛ (z 34 ⊛ z 658 ⊹ n 2 ⊛ z 422 ⊛ z 579) ⊹ n 2 ⊛ (z 27 ⊛ z 36 ⊝ qt 6 ⊛ z 34 ⊛
    z 422) ⊛ z 581 ⊘ hpow (z 35) 1) ⊘ hpow (z 35) 1 ⊹ z 36 ⊛ (z 36 ⊛ (n 4 ⊛ z 36 ⊛ z 2187 ⊝ n 2 ⊛
    z 422 ⊛ z 2321 ⊝ z 34 ⊛ z 2385 ⊝ z 1069 ⊛ z 658 ⊝ z 1104 ⊛ z 579 ⊝ n 2 ⊛ z 1071 ⊛ z 310 ⊘ hpow
    (z 35) 1) ⊹ (z 1071 ⊛ (z 27 ⊛ z 36 ⊝ z 34 ⊛ z 422) ⊛ z 581 ⊝ n 2 ⊛ z 35 ⊛ (z 27 ⊛ z 36 ⊝ z 34
    ⊛ z 422) ⊛ z 2322 ⊝ z 35 ⊛ (n 2 ⊛ z 36 ⊛ z 66 ⊝ n 2 ⊛ z 422 ⊛ z 1069 ⊝ z 34 ⊛ z 1104) ⊛ z 581)
    ⊘ hpow (z 35) 3)) ⊘ pow (z 36) 4),
(2388, qt 2 ⊛ z 431 ⊛ z 2142 ⊹ qt 2 ⊛ z 442 ⊛ z 2184 ⊹ qt 1 ⊛ rf ⊛ z 28 ⊛ z 2386 ⊹ qt 1 ⊛ rf ⊛ z
    32 ⊛ z 2387 ⊹ qt 1 ⊛ rf ⊛ z 4 ⊛ z 5 ⊛ z 660 ⊝ qt 1 ⊛ rf ⊛ z 27 ⊛ z 659 ⊝ qt 1 ⊛ rf ⊛ z 1105 ⊛
    z 308 ⊝ qt 1 ⊛ rf ⊛ z 1106 ⊛ z 268),
(2389, d1 ⊛ z 3 ⊛ z 6 ⊛ z 1578 ⊹ z 3 ⊛ z 6 ⊛ z 9 ⊛ z 449 ⊛ z 1578 ⊹ z 4 ⊛ z 6 ⊛ z 10 ⊛ z 451 ⊛ z
    1578 ⊹ d1 ⊛ z 3 ⊛ z 5 ⊛ q4p ⊹ z 3 ⊛ z 6 ⊛ z 448 ⊛ q4p ⊹ z 4 ⊛ z 5 ⊛ z 448 ⊛ q5p ⊹ z 4 ⊛ z 6 ⊛
    z 455 ⊛ q4p ⊹ z 6 ⊛ z 10 ⊛ z 1102 ⊛ q7p ⊹ z 3 ⊛ z 5 ⊛ z 9 ⊛ z 449 ⊛ q4p ⊹ z 3 ⊛ z 5 ⊛ z 9 ⊛ z
    1093 ⊛ q4p ⊹ z 3 ⊛ z 6 ⊛ z 10 ⊛ z 451 ⊛ q5p ⊹ z 4 ⊛ z 5 ⊛ z 10 ⊛ z 451 ⊛ q4p ⊹ z 4 ⊛ z 6 ⊛ z
    10 ⊛ z 1112 ⊛ q5p ⊹ qt 2 ⊛ rf ⊛ z 4 ⊛ z 6 ⊛ z 1072 ⊛ q4p ⊹ qt 2 ⊛ rf ⊛ z 3 ⊛ z 5 ⊛ z 10 ⊛ z
    1076 ⊛ q7p ⊹ qt 2 ⊛ rf ⊛ z 3 ⊛ z 6 ⊛ z 9 ⊛ z 1076 ⊛ q5p ⊹ qt 2 ⊛ rf ⊛ z 4 ⊛ z 5 ⊛ z 9 ⊛ z 1076
    ⊛ q4p ⊹ z 2378 ⊹ z 3 ⊛ z 5 ⊛ z 9 ⊛ z 639 ⊹ z 4 ⊛ z 5 ⊛ z 9 ⊛ z 2366 ⊹ qt 2 ⊛ rf ⊛ z 4 ⊛ z 6 ⊛
    z 582 ⊹ qt 2 ⊛ rf ⊛ z 4 ⊛ z 5 ⊛ z 9 ⊛ z 584 ⊝ z 3 ⊛ z 5 ⊛ z 448 ⊛ z 1578 ⊝ z 4 ⊛ z 5 ⊛ z 455 ⊛
    z 1578 ⊝ z 5 ⊛ z 9 ⊛ z 454 ⊛ z 1578 ⊝ z 5 ⊛ z 10 ⊛ z 452 ⊛ z 1578 ⊝ z 4 ⊛ z 6 ⊛ z 9 ⊛ z 453 ⊛
    z 1578 ⊝ d1 ⊛ z 4 ⊛ z 6 ⊛ q5p ⊝ z 3 ⊛ z 5 ⊛ z 455 ⊛ q5p ⊝ z 3 ⊛ z 6 ⊛ z 1097 ⊛ q4p ⊝ z 4 ⊛ z 5
    ⊛ z 1097 ⊛ q5p ⊝ z 5 ⊛ z 9 ⊛ z 1102 ⊛ q5p ⊝ z 5 ⊛ z 10 ⊛ z 1107 ⊛ q5p ⊝ z 6 ⊛ z 9 ⊛ z 1107 ⊛
    q7p ⊝ z 3 ⊛ z 5 ⊛ z 9 ⊛ z 451 ⊛ q7p ⊝ z 3 ⊛ z 5 ⊛ z 10 ⊛ z 453 ⊛ q7p ⊝ z 3 ⊛ z 5 ⊛ z 10 ⊛ z
    1112 ⊛ q4p ⊝ z 3 ⊛ z 6 ⊛ z 9 ⊛ z 453 ⊛ q5p ⊝ z 4 ⊛ z 5 ⊛ z 9 ⊛ z 453 ⊛ q4p ⊝ z 4 ⊛ z 5 ⊛ z 9 ⊛
    z 1112 ⊛ q7p ⊝ z 4 ⊛ z 5 ⊛ z 10 ⊛ z 449 ⊛ q7p ⊝ z 4 ⊛ z 5 ⊛ z 10 ⊛ z 1093 ⊛ q7p ⊝ z 4 ⊛ z 6 ⊛
    z 9 ⊛ z 449 ⊛ q5p ⊝ z 4 ⊛ z 6 ⊛ z 9 ⊛ z 1093 ⊛ q5p ⊝ qt 2 ⊛ rf ⊛ z 3 ⊛ z 5 ⊛ z 1072 ⊛ q5p ⊝ z
    3 ⊛ z 6 ⊛ z 634 ⊝ z 4 ⊛ z 6 ⊛ z 2361 ⊝ z 6 ⊛ z 9 ⊛ z 2383 ⊝ z 6 ⊛ z 10 ⊛ z 2388 ⊝ z 3 ⊛ z 5 ⊛
    z 10 ⊛ z 644 ⊝ z 4 ⊛ z 5 ⊛ z 10 ⊛ z 2371 ⊝ qt 1 ⊛ rf ⊛ z 3 ⊛ z 6 ⊛ z 2328 ⊝ qt 1 ⊛ rf ⊛ z 3 ⊛
    z 5 ⊛ z 9 ⊛ z 2323),
(2390, z 6 ⊛ z 10 ⊛ z 454 ⊛ z 1578 ⊹ z 6 ⊛ z 10 ⊛ z 1102 ⊛ q5p ⊹ qt 2 ⊛ rf ⊛ z 1076 ⊛ (z 3 ⊛ z 9 ⊛
    q4p ⊹ z 3 ⊛ z 5 ⊛ z 10 ⊛ q5p ⊹ z 3 ⊛ z 6 ⊛ z 9 ⊛ q7p ⊝ z 4 ⊛ z 10 ⊛ q7p ⊝ z 4 ⊛ z 6 ⊛ z 10 ⊛
    q4p) ⊹ z 449 ⊛ (z 3 ⊛ z 5 ⊛ z 10 ⊛ z 1578 ⊝ z 3 ⊛ z 10 ⊛ q7p ⊝ z 4 ⊛ z 9 ⊛ q4p ⊝ z 3 ⊛ z 6 ⊛ z
    10 ⊛ q4p ⊝ z 4 ⊛ z 5 ⊛ z 10 ⊛ q5p ⊝ z 4 ⊛ z 6 ⊛ z 9 ⊛ q7p) ⊹ z 5 ⊛ z 9 ⊛ z 2388 ⊹ (z 3 ⊛ z 9 ⊝
    z 4 ⊛ z 6 ⊛ z 10) ⊛ z 2366 ⊹ (z 4 ⊛ z 10 ⊝ z 3 ⊛ z 6 ⊛ z 9) ⊛ z 644 ⊹ qt 1 ⊛ rf ⊛ (z 4 ⊛ z 9 ⊹
    z 3 ⊛ z 6 ⊛ z 10) ⊛ z 2323 ⊹ qt 2 ⊛ rf ⊛ (z 3 ⊛ z 9 ⊝ z 4 ⊛ z 6 ⊛ z 10) ⊛ z 584 ⊝ z 6 ⊛ z 9 ⊛
    z 452 ⊛ z 1578 ⊝ z 5 ⊛ z 9 ⊛ z 1102 ⊛ q7p ⊝ z 5 ⊛ z 10 ⊛ z 1107 ⊛ q7p ⊝ z 6 ⊛ z 9 ⊛ z 1107 ⊛
    q5p ⊝ z 1093 ⊛ (z 3 ⊛ z 10 ⊛ q7p ⊹ z 4 ⊛ z 9 ⊛ q4p ⊹ z 3 ⊛ z 6 ⊛ z 10 ⊛ q4p ⊹ z 4 ⊛ z 5 ⊛ z 10
    ⊛ q5p ⊹ z 4 ⊛ z 6 ⊛ z 9 ⊛ q7p) ⊝ z 1112 ⊛ (z 3 ⊛ z 9 ⊛ q7p ⊹ z 3 ⊛ z 6 ⊛ z 9 ⊛ q4p ⊹ z 4 ⊛ z 5
    ⊛ z 9 ⊛ q5p ⊝ z 4 ⊛ z 10 ⊛ q4p ⊝ z 4 ⊛ z 6 ⊛ z 10 ⊛ q7p) ⊝ z 453 ⊛ (z 4 ⊛ z 5 ⊛ z 10 ⊛ z 1578
    ⊹ z 3 ⊛ z 9 ⊛ q4p ⊹ z 3 ⊛ z 5 ⊛ z 10 ⊛ q5p ⊹ z 3 ⊛ z 6 ⊛ z 9 ⊛ q7p ⊝ z 4 ⊛ z 10 ⊛ q7p ⊝ z 4 ⊛
    z 6 ⊛ z 10 ⊛ q4p) ⊝ z 451 ⊛ (z 4 ⊛ z 5 ⊛ z 9 ⊛ z 1578 ⊹ z 3 ⊛ z 5 ⊛ z 9 ⊛ q5p ⊝ z 3 ⊛ z 10 ⊛
    q4p ⊝ z 4 ⊛ z 9 ⊛ q7p ⊝ z 3 ⊛ z 6 ⊛ z 10 ⊛ q7p ⊝ z 4 ⊛ z 6 ⊛ z 9 ⊛ q4p) ⊝ z 5 ⊛ z 10 ⊛ z 2383
    ⊝ (z 3 ⊛ z 10 ⊹ z 4 ⊛ z 6 ⊛ z 9) ⊛ z 2371 ⊝ (z 4 ⊛ z 9 ⊹ z 3 ⊛ z 6 ⊛ z 10) ⊛ z 639),
(2391, u4 ⊛ z 2372 ⊹ u5 ⊛ z 2389 ⊹ u7 ⊛ z 2390 ⊹ z 1578 ⊛ z 662),
(2392, z 27 ⊛ z 2310 ⊹ z 29 ⊛ z 2311 ⊹ z 66 ⊛ z 571 ⊹ z 69 ⊛ z 572 ⊹ z 233 ⊛ z 2187 ⊹ z 238 ⊛ z
    2175 ⊹ z 1181 ⊛ z 310 ⊹ z 1182 ⊛ z 300 ⊝ z 31 ⊛ z 2308 ⊝ z 122 ⊛ z 2143 ⊝ z 3 ⊛ z 5 ⊛ z 569 ⊝
    z 2 ⊛ z 3 ⊛ z 5 ⊛ z 269),
(2393, z 27 ⊛ z 2315 ⊹ z 29 ⊛ z 2316 ⊹ z 66 ⊛ z 576 ⊹ z 69 ⊛ z 577 ⊹ z 234 ⊛ z 2187 ⊹ z 239 ⊛ z
    2175 ⊹ z 1 ⊛ z 3 ⊛ z 5 ⊛ z 269 ⊝ z 31 ⊛ z 2313 ⊝ z 125 ⊛ z 2143 ⊝ z 1119 ⊛ z 310 ⊝ z 1120 ⊛ z
    300 ⊝ z 3 ⊛ z 5 ⊛ z 574),
(2394, z 257 ⊛ z 2187 ⊹ z 259 ⊛ z 2175 ⊹ (z 1068 ⊹ z 1073) ⊛ z 310 ⊹ (z 1075 ⊹ z 1079) ⊛ z 300 ⊹ z
    27 ⊛ (z 2327 ⊹ z 2329) ⊹ z 29 ⊛ (z 2331 ⊹ z 2332) ⊹ z 66 ⊛ (z 611 ⊹ z 612) ⊹ z 69 ⊛ (z 614 ⊹ z
    615) ⊝ z 31 ⊛ z 2325 ⊝ z 262 ⊛ z 2143 ⊝ z 3 ⊛ z 5 ⊛ z 607 ⊝ (z 1082 ⊝ z 1083) ⊛ z 269),
(2395, z 256 ⊛ z 2187 ⊹ z 261 ⊛ z 2175 ⊹ (z 1130 ⊹ z 1131) ⊛ z 310 ⊹ (z 1136 ⊹ z 1139) ⊛ z 300 ⊹ z
    27 ⊛ (z 2334 ⊹ z 2335) ⊹ z 29 ⊛ (z 2339 ⊹ z 2340) ⊹ z 66 ⊛ (z 597 ⊹ z 598) ⊹ z 69 ⊛ (z 600 ⊹ z
    601) ⊝ z 263 ⊛ z 2143 ⊝ (z 1128 ⊝ z 1129) ⊛ z 269 ⊝ z 31 ⊛ (z 2336 ⊝ z 2337) ⊝ z 3 ⊛ z 5 ⊛ (z
    595 ⊝ z 596)),
(2396, z 255 ⊛ z 2187 ⊹ z 260 ⊛ z 2175 ⊹ (z 1157 ⊹ z 1158) ⊛ z 310 ⊹ (z 1162 ⊹ z 1165) ⊛ z 300 ⊹ z
    27 ⊛ (z 2342 ⊹ z 2343) ⊹ z 29 ⊛ (z 2347 ⊹ z 2348) ⊹ z 66 ⊛ (z 589 ⊹ z 590) ⊹ z 69 ⊛ (z 592 ⊹ z
    593) ⊝ z 264 ⊛ z 2143 ⊝ (z 1154 ⊝ z 1155) ⊛ z 269 ⊝ z 31 ⊛ (z 2344 ⊝ z 2345) ⊝ z 3 ⊛ z 5 ⊛ (z
    587 ⊝ z 588))]

/-- _mooreriderlean2012.py:4403-4495 -/
def part35 : List (ℕ × E) := [
(2397, z 258 ⊛ z 2175 ⊹ (z 1191 ⊹ z 1194) ⊛ z 300 ⊹ z 29 ⊛ (z 2351 ⊹ z 2352) ⊹ z 69 ⊛ (z 617 ⊹ z
    618)),
(2398, z 250 ⊛ z 2143 ⊹ z 254 ⊛ z 2187 ⊹ qt 2 ⊛ z 66 ⊛ z 583 ⊹ qt 2 ⊛ z 3 ⊛ z 5 ⊛ z 585 ⊹ qt 1 ⊛
    rf ⊛ z 27 ⊛ z 83 ⊛ z 2328 ⊹ qt 1 ⊛ rf ⊛ z 31 ⊛ z 83 ⊛ z 2323 ⊹ qt 2 ⊛ rf ⊛ z 83 ⊛ z 1072 ⊛ z
    310 ⊹ qt 2 ⊛ rf ⊛ z 83 ⊛ z 1076 ⊛ z 269),
(2399, u1 ⊛ z 2392 ⊹ u2 ⊛ z 2393 ⊹ u3 ⊛ z 2394 ⊹ u4 ⊛ z 2395 ⊹ u5 ⊛ z 2396 ⊹ u7 ⊛ z 2397 ⊹ u8 ⊛ z
    2398 ⊹ z 1197 ⊛ z 621 ⊹ z 1491 ⊛ z 622 ⊹ z 1543 ⊛ z 626 ⊹ z 1578 ⊛ z 624 ⊹ z 1625 ⊛ z 623),
(2400, (z 1186 ⊛ (z 525 ⊛ z 568 ⊹ z 478 ⊛ z 496 ⊛ z 620 ⊝ z 511 ⊛ z 553 ⊝ z 535 ⊛ z 664 ⊝ z 478 ⊛
    z 528 ⊛ z 628) ⊝ z 494 ⊛ (z 525 ⊛ z 2307 ⊹ z 1536 ⊛ z 568 ⊹ z 478 ⊛ z 496 ⊛ z 2354 ⊹ z 478 ⊛ z
    1117 ⊛ z 620 ⊹ z 496 ⊛ z 1180 ⊛ z 620 ⊝ z 511 ⊛ z 2356 ⊝ z 535 ⊛ z 2391 ⊝ z 1538 ⊛ z 553 ⊝ z
    1539 ⊛ z 664 ⊝ z 478 ⊛ z 528 ⊛ z 2399 ⊝ z 478 ⊛ z 1177 ⊛ z 628 ⊝ z 528 ⊛ z 1180 ⊛ z 628)) ⊘
    pow (z 494) 2),
(2401, z 48 ⊛ z 770 ⊹ z 767 ⊛ z 1126 ⊹ z 774 ⊛ z 1061 ⊹ z 789 ⊛ z 1126 ⊹ z 795 ⊛ z 1063 ⊹ z 803 ⊛
    z 1134 ⊹ z 808 ⊛ z 1132 ⊹ z 813 ⊛ z 1127 ⊹ z 818 ⊛ z 1134 ⊹ z 823 ⊛ z 1132 ⊹ z 834 ⊛ z 1138 ⊹
    z 838 ⊛ z 1127 ⊹ z 844 ⊛ z 1137 ⊹ z 857 ⊛ z 2221 ⊹ z 862 ⊛ z 2232 ⊹ z 867 ⊛ z 2229 ⊹ z 870 ⊛ z
    2221 ⊹ z 874 ⊛ z 2232 ⊹ ic31 ⊛ z 45 ⊛ z 1156 ⊹ ic33 ⊛ z 49 ⊛ z 1156 ⊹ ie11 ⊛ z 74 ⊛ z 1160 ⊹
    ie22 ⊛ z 77 ⊛ z 1153 ⊹ ie31 ⊛ z 74 ⊛ z 1159 ⊹ ie31 ⊛ z 80 ⊛ z 1160 ⊹ ie33 ⊛ z 80 ⊛ z 1159 ⊹
    if11 ⊛ z 92 ⊛ z 1164 ⊹ if11 ⊛ z 97 ⊛ z 1163 ⊹ if22 ⊛ z 77 ⊛ z 1153 ⊹ ig22 ⊛ z 113 ⊛ z 2052 ⊹
    ig31 ⊛ z 109 ⊛ z 2051 ⊹ ig33 ⊛ z 117 ⊛ z 2051 ⊹ z 2059 ⊛ z 109 ⊛ z 1156 ⊹ z 2130 ⊛ z 117 ⊛ z
    1156 ⊹ n 2 ⊛ ic22 ⊛ z 46 ⊛ z 1152 ⊹ n 2 ⊛ id22 ⊛ z 46 ⊛ z 1152 ⊹ id11 ⊛ z 7 ⊛ z 63 ⊛ z 1156 ⊹
    mc ⊛ (z 128 ⊛ z 2267 ⊹ l1 ⊛ z 132 ⊛ z 1126 ⊹ l1 ⊛ z 139 ⊛ z 1156 ⊹ l2 ⊛ z 135 ⊛ z 1126 ⊹ n 2 ⊛
    l1 ⊛ z 131 ⊛ z 1152 ⊹ n 2 ⊛ l2 ⊛ z 134 ⊛ z 1152) ⊹ mg ⊛ (z 212 ⊛ (z 2053 ⊹ z 2055) ⊹ z 213 ⊛
    (z 2255 ⊹ z 2257) ⊹ z 210 ⊛ (z 2243 ⊹ l6 ⊛ z 2229) ⊹ z 209 ⊛ (n 2 ⊛ z 2058 ⊹ l6 ⊛ z 2052) ⊹ z
    215 ⊛ (z 2056 ⊝ l5 ⊛ z 2052) ⊹ z 216 ⊛ (z 2264 ⊝ l5 ⊛ z 2229)) ⊹ me ⊛ (z 160 ⊛ z 2273 ⊹ z 162
    ⊛ z 2111 ⊹ d1 ⊛ z 141 ⊛ z 1126 ⊹ d1 ⊛ z 143 ⊛ z 1061 ⊹ d1 ⊛ z 147 ⊛ z 1156 ⊹ d1 ⊛ z 167 ⊛ z
    1126 ⊹ z 158 ⊛ z 140 ⊛ z 1153 ⊹ z 158 ⊛ z 141 ⊛ z 1127 ⊹ z 158 ⊛ z 167 ⊛ z 1127 ⊹ z 158 ⊛ z
    168 ⊛ z 1153 ⊹ z 163 ⊛ z 164 ⊛ z 1127 ⊹ z 163 ⊛ z 165 ⊛ z 1153 ⊹ z 9 ⊛ z 143 ⊛ z 2273 ⊹ z 9 ⊛
    z 147 ⊛ z 2111 ⊹ n 2 ⊛ d1 ⊛ z 140 ⊛ z 1152 ⊹ n 2 ⊛ d1 ⊛ z 168 ⊛ z 1152 ⊹ d1 ⊛ z 9 ⊛ z 160 ⊛ z
    1061 ⊹ d1 ⊛ z 9 ⊛ z 162 ⊛ z 1156 ⊹ d1 ⊛ z 10 ⊛ z 164 ⊛ z 1061 ⊹ d1 ⊛ z 10 ⊛ z 165 ⊛ z 1156 ⊹ z
    163 ⊛ z 10 ⊛ z 143 ⊛ z 1127 ⊹ z 163 ⊛ z 10 ⊛ z 147 ⊛ z 1153) ⊹ mf ⊛ (z 149 ⊛ z 1135 ⊹ z 151 ⊛
    z 1161 ⊹ d1 ⊛ z 141 ⊛ z 1126 ⊹ d1 ⊛ z 143 ⊛ z 1061 ⊹ d1 ⊛ z 147 ⊛ z 1156 ⊹ d1 ⊛ z 155 ⊛ z 1126
    ⊹ d2 ⊛ z 152 ⊛ z 1127 ⊹ d2 ⊛ z 153 ⊛ z 1153 ⊹ d3 ⊛ z 140 ⊛ z 1153 ⊹ d3 ⊛ z 141 ⊛ z 1127 ⊹ d3 ⊛
    z 155 ⊛ z 1127 ⊹ d3 ⊛ z 156 ⊛ z 1153 ⊹ z 9 ⊛ z 143 ⊛ z 1135 ⊹ z 9 ⊛ z 147 ⊛ z 1161 ⊹ n 2 ⊛ d1
    ⊛ z 140 ⊛ z 1152 ⊹ n 2 ⊛ d1 ⊛ z 156 ⊛ z 1152 ⊹ d1 ⊛ z 9 ⊛ z 149 ⊛ z 1061 ⊹ d1 ⊛ z 9 ⊛ z 151 ⊛
    z 1156 ⊹ d1 ⊛ z 10 ⊛ z 152 ⊛ z 1061 ⊹ d1 ⊛ z 10 ⊛ z 153 ⊛ z 1156 ⊹ d2 ⊛ z 10 ⊛ z 143 ⊛ z 1127
    ⊹ d2 ⊛ z 10 ⊛ z 147 ⊛ z 1153) ⊝ z 786 ⊛ z 1062 ⊝ id11 ⊛ z 8 ⊛ z 60 ⊛ z 1156),
(2402, z 2401 ⊹ z 538 ⊛ z 2114 ⊹ z 544 ⊛ z 2132 ⊹ z 547 ⊛ z 2131 ⊹ z 915 ⊛ z 1490 ⊹ if22 ⊛ z 83 ⊛
    z 549 ⊛ z 1153 ⊝ z 541 ⊛ z 2112 ⊝ z 911 ⊛ z 1187 ⊝ z 920 ⊛ z 1540 ⊝ z 928 ⊛ z 1576 ⊝ z 934 ⊛ z
    1622),
(2403, (z 494 ⊛ z 536 ⊛ z 2391 ⊹ z 494 ⊛ z 1575 ⊛ z 664 ⊝ z 536 ⊛ z 1186 ⊛ z 664) ⊘ pow (z 494) 2),
(2404, z 841 ⊛ z 1127 ⊹ z 547 ⊛ z 841 ⊛ z 1153 ⊹ z 29 ⊛ z 43 ⊛ z 544 ⊛ z 841 ⊝ z 923 ⊛ z 1540 ⊝ z
    931 ⊛ z 1576 ⊝ z 937 ⊛ z 1622),
(2405, (z 1186 ⊛ (z 526 ⊛ z 568 ⊹ z 532 ⊛ z 628 ⊝ z 512 ⊛ z 553 ⊝ z 527 ⊛ z 620 ⊝ z 537 ⊛ z 664) ⊝
    z 494 ⊛ (z 526 ⊛ z 2307 ⊹ z 532 ⊛ z 2399 ⊹ z 1608 ⊛ z 568 ⊹ z 1612 ⊛ z 628 ⊝ z 512 ⊛ z 2356 ⊝
    z 527 ⊛ z 2354 ⊝ z 537 ⊛ z 2391 ⊝ z 1613 ⊛ z 553 ⊝ z 1614 ⊛ z 620 ⊝ z 1621 ⊛ z 664)) ⊘ pow (z
    494) 2),
(2406, md ⊛ z 2 ⊛ z 4 ⊛ z 119 ⊹ mc ⊛ (l2 ⊛ z 120 ⊛ z 1126 ⊹ z 2 ⊛ z 4 ⊛ z 139 ⊝ z 121 ⊛ z 2267 ⊝
    l1 ⊛ z 122 ⊛ z 1126 ⊝ z 2 ⊛ z 3 ⊛ z 5 ⊛ z 131 ⊝ z 2 ⊛ z 3 ⊛ z 6 ⊛ z 134) ⊝ mg ⊛ (z 209 ⊛ z
    2061 ⊹ z 215 ⊛ z 2063 ⊝ z 212 ⊛ z 2062 ⊝ z 187 ⊛ (z 2255 ⊹ z 2257) ⊝ z 182 ⊛ (z 2243 ⊹ l6 ⊛ z
    2229) ⊝ z 192 ⊛ (z 2264 ⊝ l5 ⊛ z 2229)) ⊝ me ⊛ (d1 ⊛ z 121 ⊛ z 1061 ⊹ d1 ⊛ z 122 ⊛ z 1126 ⊹ z
    158 ⊛ z 122 ⊛ z 1127 ⊹ z 9 ⊛ z 121 ⊛ z 2273 ⊹ z 10 ⊛ z 120 ⊛ z 2273 ⊹ z 163 ⊛ z 10 ⊛ z 121 ⊛ z
    1127 ⊹ z 2 ⊛ z 3 ⊛ z 5 ⊛ z 140 ⊹ z 2 ⊛ z 3 ⊛ z 5 ⊛ z 168 ⊹ z 2 ⊛ z 3 ⊛ z 6 ⊛ z 9 ⊛ z 165 ⊝ z 2
    ⊛ z 4 ⊛ z 147 ⊝ z 163 ⊛ z 9 ⊛ z 120 ⊛ z 1127 ⊝ z 2 ⊛ z 4 ⊛ z 9 ⊛ z 162 ⊝ z 2 ⊛ z 4 ⊛ z 10 ⊛ z
    165 ⊝ z 2 ⊛ z 3 ⊛ z 6 ⊛ z 10 ⊛ z 162) ⊝ mf ⊛ (d1 ⊛ z 121 ⊛ z 1061 ⊹ d1 ⊛ z 122 ⊛ z 1126 ⊹ d3 ⊛
    z 122 ⊛ z 1127 ⊹ z 9 ⊛ z 121 ⊛ z 1135 ⊹ z 10 ⊛ z 120 ⊛ z 1135 ⊹ d2 ⊛ z 10 ⊛ z 121 ⊛ z 1127 ⊹ z
    2 ⊛ z 3 ⊛ z 5 ⊛ z 140 ⊹ z 2 ⊛ z 3 ⊛ z 5 ⊛ z 156 ⊹ z 2 ⊛ z 3 ⊛ z 6 ⊛ z 9 ⊛ z 153 ⊝ z 2 ⊛ z 4 ⊛
    z 147 ⊝ d2 ⊛ z 9 ⊛ z 120 ⊛ z 1127 ⊝ z 2 ⊛ z 4 ⊛ z 9 ⊛ z 151 ⊝ z 2 ⊛ z 4 ⊛ z 10 ⊛ z 153 ⊝ z 2 ⊛
    z 3 ⊛ z 6 ⊛ z 10 ⊛ z 151)),
(2407, z 2406 ⊹ z 538 ⊛ z 2089 ⊹ z 544 ⊛ z 2090 ⊹ z 547 ⊛ z 2114 ⊹ z 910 ⊛ z 1490 ⊝ z 541 ⊛ z 2081
    ⊝ z 909 ⊛ z 1187 ⊝ z 911 ⊛ z 1576 ⊝ z 912 ⊛ z 1540),
(2408, (z 1186 ⊛ (z 519 ⊛ z 568 ⊹ z 487 ⊛ z 496 ⊛ z 620 ⊝ z 504 ⊛ z 553 ⊝ z 533 ⊛ z 664 ⊝ z 487 ⊛
    z 528 ⊛ z 628) ⊝ z 494 ⊛ (z 519 ⊛ z 2307 ⊹ z 1125 ⊛ z 568 ⊹ z 487 ⊛ z 496 ⊛ z 2354 ⊹ z 487 ⊛ z
    1117 ⊛ z 620 ⊹ z 496 ⊛ z 1146 ⊛ z 620 ⊝ z 504 ⊛ z 2356 ⊝ z 533 ⊛ z 2391 ⊝ z 1150 ⊛ z 553 ⊝ z
    1175 ⊛ z 664 ⊝ z 487 ⊛ z 528 ⊛ z 2399 ⊝ z 487 ⊛ z 1177 ⊛ z 628 ⊝ z 528 ⊛ z 1146 ⊛ z 628)) ⊘
    pow (z 494) 2),
(2409, me ⊛ (d1 ⊛ z 124 ⊛ z 1061 ⊹ z 9 ⊛ z 124 ⊛ z 2273 ⊹ z 163 ⊛ z 9 ⊛ z 123 ⊛ z 1127 ⊹ z 163 ⊛ z
    10 ⊛ z 124 ⊛ z 1127 ⊹ z 1 ⊛ z 3 ⊛ z 5 ⊛ z 140 ⊹ z 1 ⊛ z 3 ⊛ z 5 ⊛ z 168 ⊹ z 1 ⊛ z 3 ⊛ z 6 ⊛ z
    9 ⊛ z 165 ⊝ d1 ⊛ z 125 ⊛ z 1126 ⊝ z 158 ⊛ z 125 ⊛ z 1127 ⊝ z 1 ⊛ z 4 ⊛ z 147 ⊝ z 10 ⊛ z 123 ⊛
    z 2273 ⊝ z 1 ⊛ z 4 ⊛ z 9 ⊛ z 162 ⊝ z 1 ⊛ z 4 ⊛ z 10 ⊛ z 165 ⊝ z 1 ⊛ z 3 ⊛ z 6 ⊛ z 10 ⊛ z 162)
    ⊹ mf ⊛ (d1 ⊛ z 124 ⊛ z 1061 ⊹ z 9 ⊛ z 124 ⊛ z 1135 ⊹ d2 ⊛ z 9 ⊛ z 123 ⊛ z 1127 ⊹ d2 ⊛ z 10 ⊛ z
    124 ⊛ z 1127 ⊹ z 1 ⊛ z 3 ⊛ z 5 ⊛ z 140 ⊹ z 1 ⊛ z 3 ⊛ z 5 ⊛ z 156 ⊹ z 1 ⊛ z 3 ⊛ z 6 ⊛ z 9 ⊛ z
    153 ⊝ d1 ⊛ z 125 ⊛ z 1126 ⊝ d3 ⊛ z 125 ⊛ z 1127 ⊝ z 1 ⊛ z 4 ⊛ z 147 ⊝ z 10 ⊛ z 123 ⊛ z 1135 ⊝
    z 1 ⊛ z 4 ⊛ z 9 ⊛ z 151 ⊝ z 1 ⊛ z 4 ⊛ z 10 ⊛ z 153 ⊝ z 1 ⊛ z 3 ⊛ z 6 ⊛ z 10 ⊛ z 151) ⊝ md ⊛ z
    1 ⊛ z 4 ⊛ z 119 ⊝ mc ⊛ (l1 ⊛ z 125 ⊛ z 1126 ⊹ z 1 ⊛ z 4 ⊛ z 139 ⊝ z 124 ⊛ z 2267 ⊝ l2 ⊛ z 123
    ⊛ z 1126 ⊝ z 1 ⊛ z 3 ⊛ z 5 ⊛ z 131 ⊝ z 1 ⊛ z 3 ⊛ z 6 ⊛ z 134) ⊝ mg ⊛ (z 212 ⊛ z 2048 ⊝ z 209 ⊛
    z 2047 ⊝ z 215 ⊛ z 2049 ⊝ z 188 ⊛ (z 2255 ⊹ z 2257) ⊝ z 183 ⊛ (z 2243 ⊹ l6 ⊛ z 2229) ⊝ z 193 ⊛
    (z 2264 ⊝ l5 ⊛ z 2229))),
(2410, z 2409 ⊹ z 538 ⊛ z 2081 ⊹ z 544 ⊛ z 2087 ⊹ z 547 ⊛ z 2112 ⊹ z 914 ⊛ z 1490 ⊝ z 541 ⊛ z 2080
    ⊝ z 910 ⊛ z 1187 ⊝ z 915 ⊛ z 1576 ⊝ z 916 ⊛ z 1540),
(2411, (z 1186 ⊛ (z 523 ⊛ z 568 ⊹ z 482 ⊛ z 496 ⊛ z 620 ⊝ z 509 ⊛ z 553 ⊝ z 534 ⊛ z 664 ⊝ z 482 ⊛
    z 528 ⊛ z 628) ⊝ z 494 ⊛ (z 523 ⊛ z 2307 ⊹ z 1489 ⊛ z 568 ⊹ z 482 ⊛ z 496 ⊛ z 2354 ⊹ z 482 ⊛ z
    1117 ⊛ z 620 ⊹ z 496 ⊛ z 1179 ⊛ z 620 ⊝ z 509 ⊛ z 2356 ⊝ z 534 ⊛ z 2391 ⊝ z 1483 ⊛ z 553 ⊝ z
    1486 ⊛ z 664 ⊝ z 482 ⊛ z 528 ⊛ z 2399 ⊝ z 482 ⊛ z 1177 ⊛ z 628 ⊝ z 528 ⊛ z 1179 ⊛ z 628)) ⊘
    pow (z 494) 2)]

end BP.EL
