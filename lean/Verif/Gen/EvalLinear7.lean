import Verif.Model.EvalLinear

/-!
# The body of `eval_linear`, part 7

Generated by tools/gen_eval_linear.py from _mooreriderlean2012.py:8337-9785.  Do not edit.
-/

namespace BP.EL

open E

/-- _mooreriderlean2012.py:8337-8438 -/
def part72 : List (ℕ × E) := [
(3868, d2 ⊛ z 3802 ⊝ z 3795 ⊛ (z 155 ⊛ q5p ⊹ z 156 ⊛ q4p ⊹ z 157 ⊛ q3p) ⊝ z 3797 ⊛ (z 148 ⊛ q3p ⊹
    z 149 ⊛ q5p ⊹ z 150 ⊛ q7p ⊹ z 151 ⊛ q4p) ⊝ (z 148 ⊛ z 1570 ⊹ z 149 ⊛ z 1593) ⊛ z 294 ⊝ (z 155
    ⊛ z 1593 ⊹ z 157 ⊛ z 1570) ⊛ z 293),
(3869, z 45 ⊛ z 3761 ⊹ z 46 ⊛ z 3766 ⊹ z 46 ⊛ z 3769 ⊹ z 49 ⊛ z 3770 ⊹ z 60 ⊛ z 3774 ⊹ z 63 ⊛ z
    3778 ⊹ z 74 ⊛ z 3799 ⊹ z 77 ⊛ z 3804 ⊹ z 77 ⊛ z 3807 ⊹ z 80 ⊛ z 3808 ⊹ z 92 ⊛ z 847 ⊹ z 92 ⊛ z
    848 ⊹ z 92 ⊛ z 3815 ⊹ z 97 ⊛ z 3821 ⊹ z 109 ⊛ z 3832 ⊹ z 113 ⊛ z 3837 ⊹ z 117 ⊛ z 3838 ⊹ z
    1455 ⊛ z 837 ⊹ z 1455 ⊛ z 850 ⊹ ic11 ⊛ z 45 ⊛ z 3755 ⊹ ic22 ⊛ z 46 ⊛ z 3764 ⊹ ic31 ⊛ z 45 ⊛ z
    3757 ⊹ ic31 ⊛ z 49 ⊛ z 3755 ⊹ ic33 ⊛ z 49 ⊛ z 3757 ⊹ id11 ⊛ z 60 ⊛ z 3773 ⊹ id11 ⊛ z 63 ⊛ z
    3777 ⊹ id22 ⊛ z 46 ⊛ z 3764 ⊹ ie11 ⊛ z 74 ⊛ z 3788 ⊹ ie22 ⊛ z 77 ⊛ z 3802 ⊹ ie31 ⊛ z 74 ⊛ z
    3794 ⊹ ie31 ⊛ z 80 ⊛ z 3788 ⊹ ie33 ⊛ z 80 ⊛ z 3794 ⊹ if11 ⊛ z 92 ⊛ z 3813 ⊹ if11 ⊛ z 97 ⊛ z
    3820 ⊹ if22 ⊛ z 77 ⊛ z 3802 ⊹ ig11 ⊛ z 109 ⊛ z 3824 ⊹ ig22 ⊛ z 113 ⊛ z 3835 ⊹ ig31 ⊛ z 109 ⊛ z
    3827 ⊹ ig31 ⊛ z 117 ⊛ z 3824 ⊹ ig33 ⊛ z 117 ⊛ z 3827 ⊹ mg ⊛ (z 209 ⊛ z 3846 ⊹ z 212 ⊛ z 3851 ⊹
    z 215 ⊛ z 3853) ⊝ md ⊛ z 3 ⊛ z 119 ⊛ z 3840 ⊝ mc ⊛ (z 131 ⊛ z 3854 ⊝ z 134 ⊛ z 3855 ⊝ z 139 ⊛
    z 3857) ⊝ me ⊛ (z 140 ⊛ z 3858 ⊹ z 140 ⊛ z 3859 ⊹ z 168 ⊛ z 3858 ⊹ z 168 ⊛ z 3859 ⊹ z 10 ⊛ z
    162 ⊛ z 3860 ⊝ z 147 ⊛ z 3861 ⊝ z 162 ⊛ z 3863 ⊝ z 165 ⊛ z 3864 ⊝ z 9 ⊛ z 147 ⊛ z 3863 ⊝ z 9 ⊛
    z 162 ⊛ z 3861 ⊝ z 9 ⊛ z 165 ⊛ z 3860 ⊝ z 10 ⊛ z 147 ⊛ z 3864 ⊝ z 10 ⊛ z 165 ⊛ z 3861) ⊝ mf ⊛
    (z 140 ⊛ z 3858 ⊹ z 140 ⊛ z 3865 ⊹ z 156 ⊛ z 3858 ⊹ z 156 ⊛ z 3865 ⊹ z 10 ⊛ z 151 ⊛ z 3860 ⊝ z
    147 ⊛ z 3861 ⊝ z 151 ⊛ z 3867 ⊝ z 153 ⊛ z 3868 ⊝ z 9 ⊛ z 147 ⊛ z 3867 ⊝ z 9 ⊛ z 151 ⊛ z 3861 ⊝
    z 9 ⊛ z 153 ⊛ z 3860 ⊝ z 10 ⊛ z 147 ⊛ z 3868 ⊝ z 10 ⊛ z 153 ⊛ z 3861)),
(3870, mg ⊛ (z 182 ⊛ z 3846 ⊹ z 187 ⊛ z 3851 ⊹ z 192 ⊛ z 3853) ⊹ me ⊛ (z 120 ⊛ z 3860 ⊹ z 122 ⊛ z
    3858 ⊹ z 122 ⊛ z 3859 ⊹ z 9 ⊛ z 120 ⊛ z 3864 ⊝ z 121 ⊛ z 3861 ⊝ z 9 ⊛ z 121 ⊛ z 3863 ⊝ z 10 ⊛
    z 120 ⊛ z 3863 ⊝ z 10 ⊛ z 121 ⊛ z 3864) ⊹ mf ⊛ (z 120 ⊛ z 3860 ⊹ z 122 ⊛ z 3858 ⊹ z 122 ⊛ z
    3865 ⊹ z 9 ⊛ z 120 ⊛ z 3868 ⊝ z 121 ⊛ z 3861 ⊝ z 9 ⊛ z 121 ⊛ z 3867 ⊝ z 10 ⊛ z 120 ⊛ z 3867 ⊝
    z 10 ⊛ z 121 ⊛ z 3868) ⊝ md ⊛ (z 1 ⊛ z 3839 ⊝ z 2 ⊛ z 3840) ⊝ mc ⊛ (z 121 ⊛ z 3857 ⊝ z 120 ⊛ z
    3855 ⊝ z 122 ⊛ z 3854)),
(3871, z 51 ⊛ z 3766 ⊹ z 51 ⊛ z 3769 ⊹ z 52 ⊛ z 3770 ⊹ z 52 ⊛ z 3808 ⊹ z 61 ⊛ z 3774 ⊹ z 64 ⊛ z
    3778 ⊹ z 81 ⊛ z 3799 ⊹ z 82 ⊛ z 3804 ⊹ z 82 ⊛ z 3807 ⊹ z 90 ⊛ z 3815 ⊹ z 94 ⊛ z 3821 ⊹ z 110 ⊛
    z 3832 ⊹ z 112 ⊛ z 3837 ⊹ z 115 ⊛ z 3838 ⊹ ic22 ⊛ z 51 ⊛ z 3764 ⊹ ic31 ⊛ z 52 ⊛ z 3755 ⊹ ic33
    ⊛ z 52 ⊛ z 3757 ⊹ id11 ⊛ z 61 ⊛ z 3773 ⊹ id11 ⊛ z 64 ⊛ z 3777 ⊹ id22 ⊛ z 51 ⊛ z 3764 ⊹ ie11 ⊛
    z 81 ⊛ z 3788 ⊹ ie22 ⊛ z 82 ⊛ z 3802 ⊹ ie31 ⊛ z 52 ⊛ z 3788 ⊹ ie31 ⊛ z 81 ⊛ z 3794 ⊹ ie33 ⊛ z
    52 ⊛ z 3794 ⊹ if11 ⊛ z 90 ⊛ z 3813 ⊹ if11 ⊛ z 94 ⊛ z 3820 ⊹ if22 ⊛ z 82 ⊛ z 3802 ⊹ ig11 ⊛ z
    110 ⊛ z 3824 ⊹ ig22 ⊛ z 112 ⊛ z 3835 ⊹ ig31 ⊛ z 110 ⊛ z 3827 ⊹ ig31 ⊛ z 115 ⊛ z 3824 ⊹ ig33 ⊛
    z 115 ⊛ z 3827 ⊹ md ⊛ z 118 ⊛ z 3839 ⊹ z 43 ⊛ z 88 ⊛ z 847 ⊹ z 43 ⊛ z 88 ⊛ z 848 ⊹ z 43 ⊛ z
    1452 ⊛ z 837 ⊹ z 43 ⊛ z 1452 ⊛ z 850 ⊹ mc ⊛ (z 130 ⊛ z 3857 ⊹ z 137 ⊛ z 3855 ⊹ z 138 ⊛ z 3854)
    ⊹ mg ⊛ (z 211 ⊛ z 3846 ⊹ z 214 ⊛ z 3851 ⊹ z 217 ⊛ z 3853) ⊝ z 50 ⊛ z 3761 ⊝ ic11 ⊛ z 50 ⊛ z
    3755 ⊝ ic31 ⊛ z 50 ⊛ z 3757 ⊝ me ⊛ (z 126 ⊛ z 3860 ⊹ z 169 ⊛ z 3858 ⊹ z 169 ⊛ z 3859 ⊹ z 9 ⊛ z
    126 ⊛ z 3864 ⊹ z 10 ⊛ z 159 ⊛ z 3860 ⊝ z 145 ⊛ z 3861 ⊝ z 146 ⊛ z 3858 ⊝ z 146 ⊛ z 3859 ⊝ z
    159 ⊛ z 3863 ⊝ z 166 ⊛ z 3864 ⊝ z 9 ⊛ z 145 ⊛ z 3863 ⊝ z 9 ⊛ z 159 ⊛ z 3861 ⊝ z 9 ⊛ z 166 ⊛ z
    3860 ⊝ z 10 ⊛ z 126 ⊛ z 3863 ⊝ z 10 ⊛ z 145 ⊛ z 3864 ⊝ z 10 ⊛ z 166 ⊛ z 3861) ⊝ mf ⊛ (z 126 ⊛
    z 3860 ⊹ z 157 ⊛ z 3858 ⊹ z 157 ⊛ z 3865 ⊹ z 9 ⊛ z 126 ⊛ z 3868 ⊹ z 10 ⊛ z 148 ⊛ z 3860 ⊝ z
    145 ⊛ z 3861 ⊝ z 146 ⊛ z 3858 ⊝ z 146 ⊛ z 3865 ⊝ z 148 ⊛ z 3867 ⊝ z 154 ⊛ z 3868 ⊝ z 9 ⊛ z 145
    ⊛ z 3867 ⊝ z 9 ⊛ z 148 ⊛ z 3861 ⊝ z 9 ⊛ z 154 ⊛ z 3860 ⊝ z 10 ⊛ z 126 ⊛ z 3867 ⊝ z 10 ⊛ z 145
    ⊛ z 3868 ⊝ z 10 ⊛ z 154 ⊛ z 3861)),
(3872, z 47 ⊛ z 3766 ⊹ z 47 ⊛ z 3769 ⊹ z 48 ⊛ z 3770 ⊹ z 65 ⊛ z 3778 ⊹ z 73 ⊛ z 3799 ⊹ z 76 ⊛ z
    3804 ⊹ z 76 ⊛ z 3807 ⊹ z 78 ⊛ z 3808 ⊹ z 91 ⊛ z 847 ⊹ z 91 ⊛ z 848 ⊹ z 91 ⊛ z 3815 ⊹ z 95 ⊛ z
    3821 ⊹ z 111 ⊛ z 3832 ⊹ z 114 ⊛ z 3837 ⊹ z 116 ⊛ z 3838 ⊹ z 1458 ⊛ z 837 ⊹ z 1458 ⊛ z 850 ⊹
    ic22 ⊛ z 47 ⊛ z 3764 ⊹ ic31 ⊛ z 48 ⊛ z 3755 ⊹ ic33 ⊛ z 48 ⊛ z 3757 ⊹ id11 ⊛ z 65 ⊛ z 3777 ⊹
    id22 ⊛ z 47 ⊛ z 3764 ⊹ ie11 ⊛ z 73 ⊛ z 3788 ⊹ ie22 ⊛ z 76 ⊛ z 3802 ⊹ ie31 ⊛ z 73 ⊛ z 3794 ⊹
    ie31 ⊛ z 78 ⊛ z 3788 ⊹ ie33 ⊛ z 78 ⊛ z 3794 ⊹ if11 ⊛ z 91 ⊛ z 3813 ⊹ if11 ⊛ z 95 ⊛ z 3820 ⊹
    if22 ⊛ z 76 ⊛ z 3802 ⊹ ig11 ⊛ z 111 ⊛ z 3824 ⊹ ig22 ⊛ z 114 ⊛ z 3835 ⊹ ig31 ⊛ z 111 ⊛ z 3827 ⊹
    ig31 ⊛ z 116 ⊛ z 3824 ⊹ ig33 ⊛ z 116 ⊛ z 3827 ⊹ mg ⊛ (z 210 ⊛ z 3846 ⊹ z 213 ⊛ z 3851 ⊹ z 216
    ⊛ z 3853) ⊝ z 62 ⊛ z 3774 ⊝ id11 ⊛ z 62 ⊛ z 3773 ⊝ mc ⊛ (z 132 ⊛ z 3854 ⊝ z 128 ⊛ z 3857 ⊝ z
    135 ⊛ z 3855) ⊝ me ⊛ (z 141 ⊛ z 3858 ⊹ z 141 ⊛ z 3859 ⊹ z 167 ⊛ z 3858 ⊹ z 167 ⊛ z 3859 ⊹ z 10
    ⊛ z 160 ⊛ z 3860 ⊝ z 143 ⊛ z 3861 ⊝ z 160 ⊛ z 3863 ⊝ z 164 ⊛ z 3864 ⊝ z 9 ⊛ z 143 ⊛ z 3863 ⊝ z
    9 ⊛ z 160 ⊛ z 3861 ⊝ z 9 ⊛ z 164 ⊛ z 3860 ⊝ z 10 ⊛ z 143 ⊛ z 3864 ⊝ z 10 ⊛ z 164 ⊛ z 3861) ⊝
    mf ⊛ (z 141 ⊛ z 3858 ⊹ z 141 ⊛ z 3865 ⊹ z 155 ⊛ z 3858 ⊹ z 155 ⊛ z 3865 ⊹ z 10 ⊛ z 149 ⊛ z
    3860 ⊝ z 143 ⊛ z 3861 ⊝ z 149 ⊛ z 3867 ⊝ z 152 ⊛ z 3868 ⊝ z 9 ⊛ z 143 ⊛ z 3867 ⊝ z 9 ⊛ z 149 ⊛
    z 3861 ⊝ z 9 ⊛ z 152 ⊛ z 3860 ⊝ z 10 ⊛ z 143 ⊛ z 3868 ⊝ z 10 ⊛ z 152 ⊛ z 3861)),
(3873, z 83 ⊛ (z 3807 ⊹ if22 ⊛ z 3802)),
(3874, mc ⊛ (z 123 ⊛ z 3855 ⊹ z 124 ⊛ z 3857 ⊹ z 125 ⊛ z 3854) ⊹ mg ⊛ (z 183 ⊛ z 3846 ⊹ z 188 ⊛ z
    3851 ⊹ z 193 ⊛ z 3853) ⊝ md ⊛ (z 1 ⊛ z 3840 ⊹ z 2 ⊛ z 3839) ⊝ me ⊛ (z 10 ⊛ z 123 ⊛ z 3863 ⊝ z
    123 ⊛ z 3860 ⊝ z 124 ⊛ z 3861 ⊝ z 125 ⊛ z 3858 ⊝ z 125 ⊛ z 3859 ⊝ z 9 ⊛ z 123 ⊛ z 3864 ⊝ z 9 ⊛
    z 124 ⊛ z 3863 ⊝ z 10 ⊛ z 124 ⊛ z 3864) ⊝ mf ⊛ (z 10 ⊛ z 123 ⊛ z 3867 ⊝ z 123 ⊛ z 3860 ⊝ z 124
    ⊛ z 3861 ⊝ z 125 ⊛ z 3858 ⊝ z 125 ⊛ z 3865 ⊝ z 9 ⊛ z 123 ⊛ z 3868 ⊝ z 9 ⊛ z 124 ⊛ z 3867 ⊝ z
    10 ⊛ z 124 ⊛ z 3868)),
(3875, z 3869 ⊹ z 538 ⊛ z 3870 ⊹ z 544 ⊛ z 3871 ⊹ z 547 ⊛ z 3872 ⊹ z 549 ⊛ z 3873 ⊹ z 1524 ⊛ z 917
    ⊹ z 1567 ⊛ z 925 ⊝ z 541 ⊛ z 3874 ⊝ z 1463 ⊛ z 913 ⊝ z 1591 ⊛ z 933 ⊝ z 1680 ⊛ z 938),
(3876, z 92 ⊛ z 843 ⊹ z 833 ⊛ z 1455 ⊹ if11 ⊛ z 43 ⊛ z 88 ⊛ z 97 ⊹ if11 ⊛ z 43 ⊛ z 92 ⊛ z 1452),
(3877, z 3876 ⊹ z 544 ⊛ z 3723 ⊹ z 547 ⊛ z 3733 ⊹ z 916 ⊛ z 1524 ⊹ z 919 ⊛ z 1567 ⊝ z 912 ⊛ z 1463
    ⊝ z 927 ⊛ z 1591 ⊝ z 936 ⊛ z 1680),
(3878, z 1 ⊛ (pow (z 3) 2 ⊹ pow (z 4) 2) ⊛ z 1570),
(3879, z 2 ⊛ (pow (z 3) 2 ⊹ pow (z 4) 2) ⊛ z 1570),
(3880, (z 5 ⊛ z 8 ⊹ z 6 ⊛ z 7) ⊛ z 1593),
(3881, (z 5 ⊛ z 7 ⊝ z 6 ⊛ z 8) ⊛ z 1593),
(3882, rr ⊛ (z 60 ⊛ z 3880 ⊝ z 54 ⊛ z 3771 ⊝ z 55 ⊛ z 3775 ⊝ z 63 ⊛ z 3881)),
(3883, rr ⊛ (z 62 ⊛ z 3880 ⊹ z 65 ⊛ z 3881)),
(3884, rr ⊛ (z 64 ⊛ z 3881 ⊝ z 61 ⊛ z 3880 ⊝ z 43 ⊛ z 54 ⊛ z 3772 ⊝ z 43 ⊛ z 55 ⊛ z 3776)),
(3885, z 3 ⊛ u4 ⊛ z 3882 ⊹ z 1468 ⊛ z 556 ⊹ z 1525 ⊛ z 559 ⊹ z 1593 ⊛ z 565 ⊝ u1 ⊛ z 3878 ⊝ u2 ⊛ z
    3879 ⊝ z 3 ⊛ u3 ⊛ z 3884 ⊝ z 3 ⊛ u5 ⊛ z 3883 ⊝ z 1570 ⊛ z 563),
(3886, z 1 ⊛ z 5 ⊛ z 1593 ⊹ z 1 ⊛ z 31 ⊛ z 1570 ⊝ z 2 ⊛ z 6 ⊛ z 1570 ⊝ z 2 ⊛ z 4 ⊛ z 6 ⊛ z 1593),
(3887, neg (z 1) ⊛ z 6 ⊛ z 1593 ⊝ z 1 ⊛ z 41 ⊛ z 1570 ⊝ z 2 ⊛ z 5 ⊛ z 1570 ⊝ z 2 ⊛ z 4 ⊛ z 5 ⊛ z
    1593),
(3888, z 9 ⊛ z 3887 ⊝ z 1 ⊛ z 3 ⊛ z 10 ⊛ z 1570),
(3889, neg (z 10) ⊛ z 3887 ⊝ z 1 ⊛ z 3 ⊛ z 9 ⊛ z 1570),
(3890, z 6 ⊛ z 3886 ⊹ z 23 ⊛ z 3888 ⊹ z 5 ⊛ z 122 ⊛ z 1593 ⊹ z 6 ⊛ z 10 ⊛ z 238 ⊛ z 1593 ⊝ z 25 ⊛
    z 3889 ⊝ z 6 ⊛ z 9 ⊛ z 233 ⊛ z 1593),
(3891, z 1 ⊛ z 6 ⊛ z 1570 ⊹ z 2 ⊛ z 5 ⊛ z 1593 ⊹ z 2 ⊛ z 31 ⊛ z 1570 ⊹ z 1 ⊛ z 4 ⊛ z 6 ⊛ z 1593)]

/-- _mooreriderlean2012.py:8439-8552 -/
def part73 : List (ℕ × E) := [
(3892, z 1 ⊛ z 5 ⊛ z 1570 ⊹ z 1 ⊛ z 4 ⊛ z 5 ⊛ z 1593 ⊝ z 2 ⊛ z 6 ⊛ z 1593 ⊝ z 2 ⊛ z 41 ⊛ z 1570),
(3893, z 9 ⊛ z 3892 ⊝ z 2 ⊛ z 3 ⊛ z 10 ⊛ z 1570),
(3894, neg (z 10) ⊛ z 3892 ⊝ z 2 ⊛ z 3 ⊛ z 9 ⊛ z 1570),
(3895, z 6 ⊛ z 3891 ⊹ z 23 ⊛ z 3893 ⊹ z 5 ⊛ z 125 ⊛ z 1593 ⊹ z 6 ⊛ z 10 ⊛ z 239 ⊛ z 1593 ⊝ z 25 ⊛
    z 3894 ⊝ z 6 ⊛ z 9 ⊛ z 234 ⊛ z 1593),
(3896, z 6 ⊛ z 3779 ⊝ z 5 ⊛ z 29 ⊛ z 1593 ⊝ z 4 ⊛ z 6 ⊛ z 25 ⊛ z 1593 ⊝ z 6 ⊛ z 10 ⊛ z 31 ⊛ z
    1593),
(3897, z 25 ⊛ z 3786 ⊝ z 23 ⊛ z 3779 ⊝ z 6 ⊛ z 9 ⊛ z 29 ⊛ z 1593 ⊝ z 6 ⊛ z 10 ⊛ z 27 ⊛ z 1593),
(3898, n 2 ⊛ z 33 ⊛ z 3896 ⊹ n 2 ⊛ z 34 ⊛ z 3897),
(3899, (n 2 ⊛ z 36 ⊛ z 3896 ⊝ z 33 ⊛ z 3898 ⊘ hpow (z 35) 1) ⊘ pow (z 36) 2),
(3900, z 39 ⊛ z 43 ⊛ z 3780 ⊹ qt 2 ⊛ rf ⊛ z 82 ⊛ z 3899),
(3901, neg (z 3900) ⊝ d3 ⊛ z 43 ⊛ z 3780 ⊝ z 5 ⊛ z 118 ⊛ z 1593),
(3902, d1 ⊛ z 3 ⊛ z 6 ⊛ z 43 ⊛ z 1593),
(3903, d2 ⊛ z 43 ⊛ z 3780 ⊹ z 6 ⊛ z 9 ⊛ z 118 ⊛ z 1593 ⊝ z 10 ⊛ z 3902),
(3904, (n 2 ⊛ z 36 ⊛ z 3897 ⊝ z 34 ⊛ z 3898 ⊘ hpow (z 35) 1) ⊘ pow (z 36) 2),
(3905, z 40 ⊛ z 43 ⊛ z 3780 ⊹ qt 2 ⊛ rf ⊛ z 82 ⊛ z 3904),
(3906, z 43 ⊛ (d2 ⊛ z 3785 ⊝ d3 ⊛ z 3 ⊛ z 6 ⊛ z 1593)),
(3907, z 3906 ⊝ z 9 ⊛ z 3902 ⊝ z 6 ⊛ z 10 ⊛ z 118 ⊛ z 1593),
(3908, z 12 ⊛ z 40 ⊛ z 90 ⊛ z 1683 ⊹ qt 2 ⊛ rf ⊛ z 11 ⊛ z 94 ⊛ z 3899 ⊹ z 11 ⊛ z 40 ⊛ z 90 ⊛ q8p ⊹
    z 12 ⊛ z 39 ⊛ z 90 ⊛ q8p ⊹ z 12 ⊛ z 40 ⊛ z 94 ⊛ q8p ⊹ z 12 ⊛ z 40 ⊛ z 43 ⊛ z 1452 ⊛ q8p ⊹ z 11
    ⊛ z 39 ⊛ z 43 ⊛ z 3819 ⊹ z 12 ⊛ z 40 ⊛ z 43 ⊛ z 324 ⊹ qt 2 ⊛ rf ⊛ z 12 ⊛ z 90 ⊛ z 582 ⊹ qt 2 ⊛
    rf ⊛ z 11 ⊛ z 43 ⊛ z 88 ⊛ z 584 ⊝ z 11 ⊛ z 39 ⊛ z 90 ⊛ z 1683 ⊝ z 11 ⊛ z 40 ⊛ z 94 ⊛ z 1683 ⊝
    z 12 ⊛ z 39 ⊛ z 94 ⊛ z 1683 ⊝ qt 2 ⊛ rf ⊛ z 11 ⊛ z 90 ⊛ z 3904 ⊝ qt 2 ⊛ rf ⊛ z 12 ⊛ z 90 ⊛ z
    3899 ⊝ qt 2 ⊛ rf ⊛ z 12 ⊛ z 94 ⊛ z 3904 ⊝ z 11 ⊛ z 39 ⊛ z 94 ⊛ q8p ⊝ z 11 ⊛ z 39 ⊛ z 43 ⊛ z
    1452 ⊛ q8p ⊝ z 11 ⊛ z 40 ⊛ z 43 ⊛ z 88 ⊛ q8p ⊝ z 12 ⊛ z 39 ⊛ z 43 ⊛ z 88 ⊛ q8p ⊝ z 11 ⊛ z 39 ⊛
    z 43 ⊛ z 324 ⊝ z 11 ⊛ z 40 ⊛ z 43 ⊛ z 329 ⊝ z 11 ⊛ z 40 ⊛ z 43 ⊛ z 3812 ⊝ z 12 ⊛ z 39 ⊛ z 43 ⊛
    z 329 ⊝ z 12 ⊛ z 39 ⊛ z 43 ⊛ z 3812 ⊝ z 12 ⊛ z 40 ⊛ z 43 ⊛ z 3819 ⊝ qt 2 ⊛ rf ⊛ z 11 ⊛ z 90 ⊛
    z 584 ⊝ qt 2 ⊛ rf ⊛ z 11 ⊛ z 94 ⊛ z 582 ⊝ qt 2 ⊛ rf ⊛ z 12 ⊛ z 94 ⊛ z 584 ⊝ qt 2 ⊛ rf ⊛ z 11 ⊛
    z 43 ⊛ z 1452 ⊛ z 582 ⊝ qt 2 ⊛ rf ⊛ z 12 ⊛ z 43 ⊛ z 88 ⊛ z 582 ⊝ qt 2 ⊛ rf ⊛ z 12 ⊛ z 43 ⊛ z
    1452 ⊛ z 584),
(3909, z 6 ⊛ z 3901 ⊹ z 5 ⊛ z 262 ⊛ z 1593 ⊹ z 6 ⊛ z 10 ⊛ z 259 ⊛ z 1593 ⊹ z 23 ⊛ (z 3903 ⊹ z
    3905) ⊝ z 6 ⊛ z 9 ⊛ z 257 ⊛ z 1593 ⊝ z 1453 ⊛ z 296 ⊝ z 25 ⊛ (z 3907 ⊹ z 3908)),
(3910, d2 ⊛ z 3800 ⊹ d1 ⊛ z 10 ⊛ z 3756),
(3911, z 40 ⊛ z 3800 ⊹ qt 2 ⊛ rf ⊛ z 77 ⊛ z 3904),
(3912, neg d1 ⊛ z 3762 ⊝ d3 ⊛ z 3800),
(3913, z 39 ⊛ z 3800 ⊹ qt 2 ⊛ rf ⊛ z 77 ⊛ z 3899),
(3914, d3 ⊛ z 3789 ⊝ d2 ⊛ z 3781),
(3915, z 3914 ⊹ d1 ⊛ z 9 ⊛ z 3756),
(3916, z 12 ⊛ z 40 ⊛ z 92 ⊛ z 1683 ⊹ qt 2 ⊛ rf ⊛ z 11 ⊛ z 97 ⊛ z 3899 ⊹ z 12 ⊛ z 40 ⊛ z 97 ⊛ q8p ⊹
    z 12 ⊛ z 40 ⊛ z 1455 ⊛ q8p ⊹ z 11 ⊛ z 39 ⊛ z 3816 ⊹ z 12 ⊛ z 40 ⊛ z 326 ⊝ z 11 ⊛ z 39 ⊛ z 92 ⊛
    z 1683 ⊝ z 11 ⊛ z 40 ⊛ z 97 ⊛ z 1683 ⊝ z 12 ⊛ z 39 ⊛ z 97 ⊛ z 1683 ⊝ qt 2 ⊛ rf ⊛ z 11 ⊛ z 92 ⊛
    z 3904 ⊝ qt 2 ⊛ rf ⊛ z 12 ⊛ z 92 ⊛ z 3899 ⊝ qt 2 ⊛ rf ⊛ z 12 ⊛ z 97 ⊛ z 3904 ⊝ z 11 ⊛ z 39 ⊛ z
    97 ⊛ q8p ⊝ z 11 ⊛ z 39 ⊛ z 1455 ⊛ q8p ⊝ z 11 ⊛ z 39 ⊛ z 326 ⊝ z 11 ⊛ z 40 ⊛ z 332 ⊝ z 11 ⊛ z
    40 ⊛ z 3809 ⊝ z 12 ⊛ z 39 ⊛ z 332 ⊝ z 12 ⊛ z 39 ⊛ z 3809 ⊝ z 12 ⊛ z 40 ⊛ z 3816 ⊝ qt 2 ⊛ rf ⊛
    z 11 ⊛ z 97 ⊛ z 582 ⊝ qt 2 ⊛ rf ⊛ z 11 ⊛ z 1455 ⊛ z 582 ⊝ qt 2 ⊛ rf ⊛ z 12 ⊛ z 97 ⊛ z 584 ⊝ qt
    2 ⊛ rf ⊛ z 12 ⊛ z 1455 ⊛ z 584),
(3917, z 5 ⊛ z 263 ⊛ z 1593 ⊹ z 6 ⊛ z 10 ⊛ z 261 ⊛ z 1593 ⊹ z 23 ⊛ (z 3910 ⊹ z 3911) ⊹ z 6 ⊛ (z
    3912 ⊝ z 3913) ⊝ z 6 ⊛ z 9 ⊛ z 256 ⊛ z 1593 ⊝ z 1456 ⊛ z 296 ⊝ z 25 ⊛ (z 3915 ⊹ z 3916)),
(3918, z 40 ⊛ z 3801 ⊹ qt 2 ⊛ rf ⊛ z 76 ⊛ z 3904),
(3919, n 2 ⊛ d1 ⊛ z 3763 ⊝ d3 ⊛ z 3801),
(3920, z 39 ⊛ z 3801 ⊹ qt 2 ⊛ rf ⊛ z 76 ⊛ z 3899),
(3921, d3 ⊛ z 3792 ⊝ d2 ⊛ z 3784),
(3922, z 12 ⊛ z 40 ⊛ z 91 ⊛ z 1683 ⊹ qt 2 ⊛ rf ⊛ z 11 ⊛ z 95 ⊛ z 3899 ⊹ z 12 ⊛ z 40 ⊛ z 95 ⊛ q8p ⊹
    z 12 ⊛ z 40 ⊛ z 1458 ⊛ q8p ⊹ z 11 ⊛ z 39 ⊛ z 3817 ⊹ z 12 ⊛ z 40 ⊛ z 325 ⊝ z 11 ⊛ z 39 ⊛ z 91 ⊛
    z 1683 ⊝ z 11 ⊛ z 40 ⊛ z 95 ⊛ z 1683 ⊝ z 12 ⊛ z 39 ⊛ z 95 ⊛ z 1683 ⊝ qt 2 ⊛ rf ⊛ z 11 ⊛ z 91 ⊛
    z 3904 ⊝ qt 2 ⊛ rf ⊛ z 12 ⊛ z 91 ⊛ z 3899 ⊝ qt 2 ⊛ rf ⊛ z 12 ⊛ z 95 ⊛ z 3904 ⊝ z 11 ⊛ z 39 ⊛ z
    95 ⊛ q8p ⊝ z 11 ⊛ z 39 ⊛ z 1458 ⊛ q8p ⊝ z 11 ⊛ z 39 ⊛ z 325 ⊝ z 11 ⊛ z 40 ⊛ z 330 ⊝ z 11 ⊛ z
    40 ⊛ z 3810 ⊝ z 12 ⊛ z 39 ⊛ z 330 ⊝ z 12 ⊛ z 39 ⊛ z 3810 ⊝ z 12 ⊛ z 40 ⊛ z 3817 ⊝ qt 2 ⊛ rf ⊛
    z 11 ⊛ z 95 ⊛ z 582 ⊝ qt 2 ⊛ rf ⊛ z 11 ⊛ z 1458 ⊛ z 582 ⊝ qt 2 ⊛ rf ⊛ z 12 ⊛ z 95 ⊛ z 584 ⊝ qt
    2 ⊛ rf ⊛ z 12 ⊛ z 1458 ⊛ z 584),
(3923, z 5 ⊛ z 264 ⊛ z 1593 ⊹ z 6 ⊛ z 10 ⊛ z 260 ⊛ z 1593 ⊹ z 6 ⊛ (z 3919 ⊝ z 3920) ⊹ z 23 ⊛ (z
    3918 ⊹ d2 ⊛ z 3801) ⊝ z 6 ⊛ z 9 ⊛ z 255 ⊛ z 1593 ⊝ z 1459 ⊛ z 296 ⊝ z 25 ⊛ (z 3921 ⊹ z 3922)),
(3924, qt 2 ⊛ rf ⊛ z 23 ⊛ z 83 ⊛ z 3904 ⊝ z 5 ⊛ z 250 ⊛ z 1593 ⊝ z 6 ⊛ z 9 ⊛ z 254 ⊛ z 1593 ⊝ qt 2
    ⊛ rf ⊛ z 6 ⊛ z 83 ⊛ z 3899),
(3925, d3 ⊛ z 3793 ⊝ d2 ⊛ z 3787),
(3926, z 12 ⊛ z 40 ⊛ z 93 ⊛ z 1683 ⊹ qt 2 ⊛ rf ⊛ z 11 ⊛ z 96 ⊛ z 3899 ⊹ z 12 ⊛ z 40 ⊛ z 96 ⊛ q8p ⊹
    z 12 ⊛ z 40 ⊛ z 1465 ⊛ q8p ⊹ z 11 ⊛ z 39 ⊛ z 3818 ⊹ z 12 ⊛ z 40 ⊛ z 327 ⊝ z 11 ⊛ z 39 ⊛ z 93 ⊛
    z 1683 ⊝ z 11 ⊛ z 40 ⊛ z 96 ⊛ z 1683 ⊝ z 12 ⊛ z 39 ⊛ z 96 ⊛ z 1683 ⊝ qt 2 ⊛ rf ⊛ z 11 ⊛ z 93 ⊛
    z 3904 ⊝ qt 2 ⊛ rf ⊛ z 12 ⊛ z 93 ⊛ z 3899 ⊝ qt 2 ⊛ rf ⊛ z 12 ⊛ z 96 ⊛ z 3904 ⊝ z 11 ⊛ z 39 ⊛ z
    96 ⊛ q8p ⊝ z 11 ⊛ z 39 ⊛ z 1465 ⊛ q8p ⊝ z 11 ⊛ z 39 ⊛ z 327 ⊝ z 11 ⊛ z 40 ⊛ z 331 ⊝ z 11 ⊛ z
    40 ⊛ z 3811 ⊝ z 12 ⊛ z 39 ⊛ z 331 ⊝ z 12 ⊛ z 39 ⊛ z 3811 ⊝ z 12 ⊛ z 40 ⊛ z 3818 ⊝ qt 2 ⊛ rf ⊛
    z 11 ⊛ z 96 ⊛ z 582 ⊝ qt 2 ⊛ rf ⊛ z 11 ⊛ z 1465 ⊛ z 582 ⊝ qt 2 ⊛ rf ⊛ z 12 ⊛ z 96 ⊛ z 584 ⊝ qt
    2 ⊛ rf ⊛ z 12 ⊛ z 1465 ⊛ z 584),
(3927, z 1466 ⊛ z 296 ⊹ z 25 ⊛ (z 3925 ⊹ z 3926) ⊝ z 6 ⊛ z 10 ⊛ z 258 ⊛ z 1593),
(3928, u1 ⊛ z 3890 ⊹ u2 ⊛ z 3895 ⊹ u8 ⊛ z 3924 ⊹ u3 ⊛ z 3909 ⊹ u4 ⊛ z 3917 ⊹ u5 ⊛ z 3923 ⊹ z 1468
    ⊛ z 573 ⊹ z 1525 ⊛ z 578 ⊹ z 1570 ⊛ z 616 ⊹ z 1593 ⊛ z 594 ⊹ z 1683 ⊛ z 586 ⊝ u7 ⊛ z 3927),
(3929, rr ⊛ u4 ⊛ z 3762 ⊹ z 1 ⊛ u2 ⊛ z 1570 ⊹ z 1 ⊛ z 1525 ⊛ q3p ⊹ z 1570 ⊛ z 552 ⊹ rr ⊛ z 1593 ⊛
    z 275 ⊝ n 2 ⊛ rr ⊛ u5 ⊛ z 3763 ⊝ z 2 ⊛ u1 ⊛ z 1570 ⊝ z 2 ⊛ z 1468 ⊛ q3p),
(3930, z 25 ⊛ z 3896 ⊝ z 6 ⊛ z 10 ⊛ z 33 ⊛ z 1593),
(3931, (n 2 ⊛ z 35 ⊛ z 3930 ⊝ z 416 ⊛ z 3898) ⊘ hpow (z 35) 3),
(3932, ((z 25 ⊛ z 36 ⊝ n 2 ⊛ z 33 ⊛ z 420) ⊛ z 3898 ⊘ hpow (z 35) 1 ⊹ z 36 ⊛ (z 33 ⊛ z 3931 ⊹ n 2
    ⊛ z 420 ⊛ z 3896 ⊹ n 2 ⊛ z 6 ⊛ z 10 ⊛ z 36 ⊛ z 1593)) ⊘ pow (z 36) 3),
(3933, (z 34 ⊛ z 36 ⊛ z 3931 ⊹ n 2 ⊛ z 36 ⊛ z 420 ⊛ z 3897 ⊝ n 2 ⊛ z 34 ⊛ z 420 ⊛ z 3898 ⊘ hpow (z
    35) 1) ⊘ pow (z 36) 3),
(3934, z 3 ⊛ z 6 ⊛ z 434 ⊛ z 1593 ⊝ z 443 ⊛ z 3785 ⊝ qt 2 ⊛ rf ⊛ z 28 ⊛ z 3932 ⊝ qt 2 ⊛ rf ⊛ z 32
    ⊛ z 3933),
(3935, z 25 ⊛ z 3897 ⊝ z 6 ⊛ z 10 ⊛ z 34 ⊛ z 1593),
(3936, (n 2 ⊛ z 35 ⊛ z 3935 ⊝ z 412 ⊛ z 3898) ⊘ hpow (z 35) 3),
(3937, (z 33 ⊛ z 36 ⊛ z 3936 ⊹ n 2 ⊛ z 36 ⊛ z 418 ⊛ z 3896 ⊝ n 2 ⊛ z 33 ⊛ z 418 ⊛ z 3898 ⊘ hpow (z
    35) 1) ⊘ pow (z 36) 3),
(3938, ((z 25 ⊛ z 36 ⊝ n 2 ⊛ z 34 ⊛ z 418) ⊛ z 3898 ⊘ hpow (z 35) 1 ⊹ z 36 ⊛ (z 34 ⊛ z 3936 ⊹ n 2
    ⊛ z 418 ⊛ z 3897 ⊹ n 2 ⊛ z 6 ⊛ z 10 ⊛ z 36 ⊛ z 1593)) ⊘ pow (z 36) 3),
(3939, z 444 ⊛ z 3785 ⊝ qt 2 ⊛ rf ⊛ z 28 ⊛ z 3937 ⊝ qt 2 ⊛ rf ⊛ z 32 ⊛ z 3938 ⊝ z 3 ⊛ z 6 ⊛ z 432
    ⊛ z 1593),
(3940, n 2 ⊛ z 23 ⊛ z 3897 ⊝ n 2 ⊛ z 6 ⊛ z 3896 ⊝ n 2 ⊛ z 5 ⊛ z 33 ⊛ z 1593 ⊝ n 2 ⊛ z 6 ⊛ z 9 ⊛ z
    34 ⊛ z 1593),
(3941, (n 2 ⊛ z 35 ⊛ z 3940 ⊝ z 411 ⊛ z 3898) ⊘ hpow (z 35) 3),
(3942, (n 2 ⊛ z 33 ⊛ z 421 ⊛ z 3898 ⊘ hpow (z 35) 1 ⊝ z 36 ⊛ (z 33 ⊛ z 3941 ⊹ n 2 ⊛ z 421 ⊛ z 3896
    ⊹ n 4 ⊛ z 5 ⊛ z 36 ⊛ z 1593 ⊝ n 2 ⊛ z 6 ⊛ z 3898 ⊘ hpow (z 35) 1)) ⊘ pow (z 36) 3),
(3943, (n 2 ⊛ (z 23 ⊛ z 36 ⊝ z 34 ⊛ z 421) ⊛ z 3898 ⊘ hpow (z 35) 1 ⊹ z 36 ⊛ (z 34 ⊛ z 3941 ⊹ n 2
    ⊛ z 421 ⊛ z 3897 ⊹ n 4 ⊛ z 6 ⊛ z 9 ⊛ z 36 ⊛ z 1593)) ⊘ pow (z 36) 3)]

/-- _mooreriderlean2012.py:8553-8668 -/
def part74 : List (ℕ × E) := [
(3944, qt 2 ⊛ z 446 ⊛ z 3785 ⊹ qt 1 ⊛ rf ⊛ z 28 ⊛ z 3942 ⊝ qt 1 ⊛ rf ⊛ z 32 ⊛ z 3943 ⊝ qt 2 ⊛ z 3
    ⊛ z 6 ⊛ z 430 ⊛ z 1593),
(3945, z 3 ⊛ z 5 ⊛ z 3934 ⊹ d1 ⊛ z 4 ⊛ z 5 ⊛ z 1593 ⊹ z 4 ⊛ z 6 ⊛ z 448 ⊛ z 1593 ⊹ z 3 ⊛ z 5 ⊛ z 9
    ⊛ z 453 ⊛ z 1593 ⊹ z 4 ⊛ z 5 ⊛ z 9 ⊛ z 449 ⊛ z 1593 ⊹ (z 3 ⊛ z 24 ⊝ z 4 ⊛ z 10) ⊛ z 3939 ⊹ qt
    2 ⊛ rf ⊛ (z 3 ⊛ z 10 ⊹ z 4 ⊛ z 24) ⊛ z 3899 ⊝ z 3 ⊛ z 6 ⊛ z 455 ⊛ z 1593 ⊝ qt 2 ⊛ rf ⊛ z 4 ⊛ z
    5 ⊛ z 3904 ⊝ z 3 ⊛ z 5 ⊛ z 10 ⊛ z 451 ⊛ z 1593 ⊝ (z 3 ⊛ z 26 ⊹ z 4 ⊛ z 9) ⊛ z 3944),
(3946, neg (z 5) ⊛ z 3779 ⊝ z 6 ⊛ z 29 ⊛ z 1593),
(3947, z 33 ⊛ z 3946 ⊹ z 410 ⊛ z 3896),
(3948, (n 2 ⊛ z 35 ⊛ z 3947 ⊝ z 415 ⊛ z 3898) ⊘ hpow (z 35) 3),
(3949, (z 34 ⊛ z 36 ⊛ z 3948 ⊹ n 2 ⊛ z 36 ⊛ z 417 ⊛ z 3897 ⊝ n 2 ⊛ z 34 ⊛ z 417 ⊛ z 3898 ⊘ hpow (z
    35) 1) ⊘ pow (z 36) 3),
(3950, (n 2 ⊛ z 33 ⊛ z 417 ⊛ z 3898 ⊘ hpow (z 35) 1 ⊹ z 36 ⊛ (n 2 ⊛ z 36 ⊛ z 3946 ⊝ n 2 ⊛ z 417 ⊛
    z 3896 ⊝ z 33 ⊛ z 3948 ⊝ z 410 ⊛ z 3898 ⊘ hpow (z 35) 1)) ⊘ pow (z 36) 3),
(3951, qt 2 ⊛ rf ⊛ z 32 ⊛ z 3949 ⊝ z 441 ⊛ z 3785 ⊝ qt 2 ⊛ rf ⊛ z 28 ⊛ z 3950 ⊝ z 3 ⊛ z 6 ⊛ z 429
    ⊛ z 1593),
(3952, z 29 ⊛ z 3897 ⊝ z 34 ⊛ z 3779),
(3953, (n 2 ⊛ z 35 ⊛ z 3952 ⊝ z 414 ⊛ z 3898) ⊘ hpow (z 35) 3),
(3954, (z 33 ⊛ z 36 ⊛ z 3953 ⊹ n 2 ⊛ z 36 ⊛ z 419 ⊛ z 3896 ⊝ n 2 ⊛ z 33 ⊛ z 419 ⊛ z 3898 ⊘ hpow (z
    35) 1) ⊘ pow (z 36) 3),
(3955, ((z 29 ⊛ z 36 ⊝ n 2 ⊛ z 34 ⊛ z 419) ⊛ z 3898 ⊘ hpow (z 35) 1 ⊹ z 36 ⊛ (z 34 ⊛ z 3953 ⊹ n 2
    ⊛ z 36 ⊛ z 3779 ⊹ n 2 ⊛ z 419 ⊛ z 3897)) ⊘ pow (z 36) 3),
(3956, z 445 ⊛ z 3785 ⊝ qt 2 ⊛ rf ⊛ z 28 ⊛ z 3954 ⊝ qt 2 ⊛ rf ⊛ z 32 ⊛ z 3955 ⊝ z 3 ⊛ z 6 ⊛ z 433
    ⊛ z 1593),
(3957, n 2 ⊛ z 27 ⊛ z 3897 ⊹ n 2 ⊛ z 31 ⊛ z 3896 ⊹ n 2 ⊛ z 34 ⊛ z 3786 ⊝ n 2 ⊛ z 4 ⊛ z 6 ⊛ z 33 ⊛
    z 1593),
(3958, (n 2 ⊛ z 35 ⊛ z 3957 ⊝ z 413 ⊛ z 3898) ⊘ hpow (z 35) 3),
(3959, (n 2 ⊛ (z 31 ⊛ z 36 ⊝ z 33 ⊛ z 422) ⊛ z 3898 ⊘ hpow (z 35) 1 ⊹ z 36 ⊛ (z 33 ⊛ z 3958 ⊹ n 2
    ⊛ z 422 ⊛ z 3896 ⊹ n 4 ⊛ z 4 ⊛ z 6 ⊛ z 36 ⊛ z 1593)) ⊘ pow (z 36) 3),
(3960, (n 2 ⊛ (z 27 ⊛ z 36 ⊝ z 34 ⊛ z 422) ⊛ z 3898 ⊘ hpow (z 35) 1 ⊝ z 36 ⊛ (n 4 ⊛ z 36 ⊛ z 3786
    ⊝ n 2 ⊛ z 422 ⊛ z 3897 ⊝ z 34 ⊛ z 3958)) ⊘ pow (z 36) 3),
(3961, neg (qt 2) ⊛ z 442 ⊛ z 3785 ⊝ qt 1 ⊛ rf ⊛ z 28 ⊛ z 3959 ⊝ qt 1 ⊛ rf ⊛ z 32 ⊛ z 3960 ⊝ qt 2
    ⊛ z 3 ⊛ z 6 ⊛ z 431 ⊛ z 1593),
(3962, z 3951 ⊹ d1 ⊛ z 3 ⊛ z 6 ⊛ z 1593 ⊹ z 4 ⊛ z 5 ⊛ z 9 ⊛ z 3939 ⊹ z 3 ⊛ z 6 ⊛ z 9 ⊛ z 449 ⊛ z
    1593 ⊹ z 4 ⊛ z 6 ⊛ z 10 ⊛ z 451 ⊛ z 1593 ⊝ z 4 ⊛ z 6 ⊛ z 3934 ⊝ z 6 ⊛ z 9 ⊛ z 3956 ⊝ z 6 ⊛ z
    10 ⊛ z 3961 ⊝ z 3 ⊛ z 5 ⊛ z 448 ⊛ z 1593 ⊝ z 4 ⊛ z 5 ⊛ z 10 ⊛ z 3944 ⊝ z 4 ⊛ z 5 ⊛ z 455 ⊛ z
    1593 ⊝ z 5 ⊛ z 9 ⊛ z 454 ⊛ z 1593 ⊝ z 5 ⊛ z 10 ⊛ z 452 ⊛ z 1593 ⊝ qt 2 ⊛ rf ⊛ z 3 ⊛ z 6 ⊛ z
    3904 ⊝ z 4 ⊛ z 6 ⊛ z 9 ⊛ z 453 ⊛ z 1593 ⊝ qt 2 ⊛ rf ⊛ z 3 ⊛ z 5 ⊛ z 9 ⊛ z 3899),
(3963, z 5 ⊛ z 9 ⊛ z 3961 ⊹ z 6 ⊛ z 10 ⊛ z 454 ⊛ z 1593 ⊹ z 3 ⊛ z 5 ⊛ z 10 ⊛ z 449 ⊛ z 1593 ⊹ (z 3
    ⊛ z 9 ⊝ z 4 ⊛ z 6 ⊛ z 10) ⊛ z 3939 ⊹ qt 2 ⊛ rf ⊛ (z 4 ⊛ z 9 ⊹ z 3 ⊛ z 6 ⊛ z 10) ⊛ z 3899 ⊝ z 5
    ⊛ z 10 ⊛ z 3956 ⊝ z 6 ⊛ z 9 ⊛ z 452 ⊛ z 1593 ⊝ z 4 ⊛ z 5 ⊛ z 9 ⊛ z 451 ⊛ z 1593 ⊝ z 4 ⊛ z 5 ⊛
    z 10 ⊛ z 453 ⊛ z 1593 ⊝ (z 3 ⊛ z 10 ⊹ z 4 ⊛ z 6 ⊛ z 9) ⊛ z 3944),
(3964, u4 ⊛ z 3945 ⊹ u5 ⊛ z 3962 ⊹ u7 ⊛ z 3963 ⊹ z 1593 ⊛ z 662),
(3965, z 27 ⊛ z 3888 ⊹ z 29 ⊛ z 3889 ⊹ z 233 ⊛ z 3786 ⊹ z 4 ⊛ z 6 ⊛ z 122 ⊛ z 1593 ⊝ z 31 ⊛ z 3886
    ⊝ z 238 ⊛ z 3779),
(3966, z 27 ⊛ z 3893 ⊹ z 29 ⊛ z 3894 ⊹ z 234 ⊛ z 3786 ⊹ z 4 ⊛ z 6 ⊛ z 125 ⊛ z 1593 ⊝ z 31 ⊛ z 3891
    ⊝ z 239 ⊛ z 3779),
(3967, z 257 ⊛ z 3786 ⊹ z 4 ⊛ z 6 ⊛ z 262 ⊛ z 1593 ⊹ z 27 ⊛ (z 3903 ⊹ z 3905) ⊹ z 1453 ⊛ z 300 ⊹ z
    29 ⊛ (z 3907 ⊹ z 3908) ⊝ z 31 ⊛ z 3901 ⊝ z 259 ⊛ z 3779),
(3968, z 256 ⊛ z 3786 ⊹ z 4 ⊛ z 6 ⊛ z 263 ⊛ z 1593 ⊹ z 27 ⊛ (z 3910 ⊹ z 3911) ⊹ z 1456 ⊛ z 300 ⊹ z
    29 ⊛ (z 3915 ⊹ z 3916) ⊝ z 261 ⊛ z 3779 ⊝ z 31 ⊛ (z 3912 ⊝ z 3913)),
(3969, z 255 ⊛ z 3786 ⊹ z 4 ⊛ z 6 ⊛ z 264 ⊛ z 1593 ⊹ z 27 ⊛ (z 3918 ⊹ d2 ⊛ z 3801) ⊹ z 1459 ⊛ z
    300 ⊹ z 29 ⊛ (z 3921 ⊹ z 3922) ⊝ z 260 ⊛ z 3779 ⊝ z 31 ⊛ (z 3919 ⊝ z 3920)),
(3970, z 1466 ⊛ z 300 ⊹ z 29 ⊛ (z 3925 ⊹ z 3926) ⊝ z 258 ⊛ z 3779),
(3971, z 254 ⊛ z 3786 ⊹ qt 2 ⊛ rf ⊛ z 27 ⊛ z 83 ⊛ z 3904 ⊹ qt 2 ⊛ rf ⊛ z 31 ⊛ z 83 ⊛ z 3899 ⊝ z 4
    ⊛ z 6 ⊛ z 250 ⊛ z 1593),
(3972, u1 ⊛ z 3965 ⊹ u2 ⊛ z 3966 ⊹ u8 ⊛ z 3971 ⊹ u3 ⊛ z 3967 ⊹ u4 ⊛ z 3968 ⊹ u5 ⊛ z 3969 ⊹ u7 ⊛ z
    3970 ⊹ z 1468 ⊛ z 621 ⊹ z 1525 ⊛ z 622 ⊹ z 1570 ⊛ z 626 ⊹ z 1593 ⊛ z 624 ⊹ z 1683 ⊛ z 623),
(3973, (z 476 ⊛ z 478 ⊛ z 1461 ⊛ (z 525 ⊛ z 568 ⊹ z 478 ⊛ z 496 ⊛ z 620 ⊝ z 511 ⊛ z 553 ⊝ z 535 ⊛
    z 664 ⊝ z 478 ⊛ z 528 ⊛ z 628) ⊹ z 494 ⊛ (z 511 ⊛ z 3929 ⊹ z 535 ⊛ z 3964 ⊹ z 478 ⊛ z 528 ⊛ z
    3972 ⊝ z 525 ⊛ z 3885 ⊝ z 478 ⊛ z 496 ⊛ z 3928 ⊝ z 478 ⊛ z 1460 ⊛ z 664)) ⊘ pow (z 494) 2),
(3974, z 92 ⊛ z 844 ⊹ z 834 ⊛ z 1455 ⊹ if11 ⊛ z 91 ⊛ z 97 ⊹ if11 ⊛ z 92 ⊛ z 1458),
(3975, z 3974 ⊹ z 544 ⊛ z 3744 ⊹ z 547 ⊛ z 3743 ⊹ z 915 ⊛ z 1524 ⊹ z 920 ⊛ z 1567 ⊝ z 911 ⊛ z 1463
    ⊝ z 928 ⊛ z 1591 ⊝ z 934 ⊛ z 1680),
(3976, (z 494 ⊛ z 536 ⊛ z 3964 ⊝ z 478 ⊛ z 494 ⊛ z 1461 ⊛ z 664 ⊝ z 476 ⊛ z 478 ⊛ z 536 ⊛ z 1461 ⊛
    z 664) ⊘ pow (z 494) 2),
(3977, z 923 ⊛ z 1567 ⊝ z 931 ⊛ z 1591 ⊝ z 937 ⊛ z 1680),
(3978, (z 476 ⊛ z 478 ⊛ z 1461 ⊛ (z 526 ⊛ z 568 ⊹ z 532 ⊛ z 628 ⊝ z 512 ⊛ z 553 ⊝ z 527 ⊛ z 620 ⊝
    z 537 ⊛ z 664) ⊝ z 494 ⊛ (z 526 ⊛ z 3885 ⊹ z 532 ⊛ z 3972 ⊹ z 1672 ⊛ z 553 ⊝ z 512 ⊛ z 3929 ⊝
    z 527 ⊛ z 3928 ⊝ z 537 ⊛ z 3964 ⊝ z 1670 ⊛ z 568 ⊝ z 1671 ⊛ z 628 ⊝ z 1673 ⊛ z 620 ⊝ z 1679 ⊛
    z 664)) ⊘ pow (z 494) 2),
(3979, z 910 ⊛ z 1524 ⊹ z 912 ⊛ z 1567 ⊝ z 909 ⊛ z 1463 ⊝ z 911 ⊛ z 1591),
(3980, (z 476 ⊛ z 478 ⊛ z 1461 ⊛ (z 519 ⊛ z 568 ⊹ z 487 ⊛ z 496 ⊛ z 620 ⊝ z 504 ⊛ z 553 ⊝ z 533 ⊛
    z 664 ⊝ z 487 ⊛ z 528 ⊛ z 628) ⊝ z 494 ⊛ (z 519 ⊛ z 3885 ⊹ z 1454 ⊛ z 568 ⊹ z 487 ⊛ z 496 ⊛ z
    3928 ⊝ z 504 ⊛ z 3929 ⊝ z 533 ⊛ z 3964 ⊝ z 1457 ⊛ z 553 ⊝ z 1462 ⊛ z 664 ⊝ z 487 ⊛ z 528 ⊛ z
    3972)) ⊘ pow (z 494) 2),
(3981, z 914 ⊛ z 1524 ⊹ z 916 ⊛ z 1567 ⊝ z 910 ⊛ z 1463 ⊝ z 915 ⊛ z 1591),
(3982, (z 476 ⊛ z 478 ⊛ z 1461 ⊛ (z 523 ⊛ z 568 ⊹ z 482 ⊛ z 496 ⊛ z 620 ⊝ z 509 ⊛ z 553 ⊝ z 534 ⊛
    z 664 ⊝ z 482 ⊛ z 528 ⊛ z 628) ⊝ z 494 ⊛ (z 523 ⊛ z 3885 ⊹ z 1523 ⊛ z 568 ⊹ z 482 ⊛ z 496 ⊛ z
    3928 ⊝ z 509 ⊛ z 3929 ⊝ z 534 ⊛ z 3964 ⊝ z 1519 ⊛ z 553 ⊝ z 1521 ⊛ z 664 ⊝ z 482 ⊛ z 528 ⊛ z
    3972)) ⊘ pow (z 494) 2),
(3983, z 3875 ⊹ z 941 ⊛ z 3976 ⊹ z 947 ⊛ z 3982 ⊹ z 3877 ⊛ z 667 ⊹ z 3975 ⊛ z 668 ⊹ z 3977 ⊛ z 669
    ⊹ z 3979 ⊛ z 665 ⊝ z 940 ⊛ z 3973 ⊝ z 944 ⊛ z 3978 ⊝ z 946 ⊛ z 3980 ⊝ z 3981 ⊛ z 666),
(3984, z 52 ⊛ z 1567 ⊝ z 78 ⊛ z 1591),
(3985, z 52 ⊛ z 1567 ⊝ z 48 ⊛ z 1591),
(3986, z 183 ⊛ z 1524 ⊹ z 211 ⊛ z 1567 ⊝ z 182 ⊛ z 1463 ⊝ z 210 ⊛ z 1591),
(3987, z 188 ⊛ z 1524 ⊹ z 214 ⊛ z 1567 ⊝ z 187 ⊛ z 1463 ⊝ z 213 ⊛ z 1591),
(3988, z 193 ⊛ z 1524 ⊹ z 217 ⊛ z 1567 ⊝ z 192 ⊛ z 1463 ⊝ z 216 ⊛ z 1591),
(3989, z 121 ⊛ z 1463 ⊹ z 124 ⊛ z 1524 ⊹ z 130 ⊛ z 1567 ⊝ z 128 ⊛ z 1591),
(3990, z 125 ⊛ z 1524 ⊹ z 132 ⊛ z 1591 ⊹ z 138 ⊛ z 1567 ⊝ z 122 ⊛ z 1463),
(3991, z 123 ⊛ z 1524 ⊹ z 137 ⊛ z 1567 ⊝ z 120 ⊛ z 1463 ⊝ z 135 ⊛ z 1591),
(3992, z 110 ⊛ z 1567 ⊝ z 111 ⊛ z 1591),
(3993, z 123 ⊛ z 1524 ⊝ z 120 ⊛ z 1463 ⊝ z 126 ⊛ z 1567),
(3994, z 121 ⊛ z 1463 ⊹ z 124 ⊛ z 1524 ⊹ z 145 ⊛ z 1567 ⊝ z 143 ⊛ z 1591),
(3995, z 125 ⊛ z 1524 ⊹ z 141 ⊛ z 1591 ⊹ z 146 ⊛ z 1567 ⊝ z 122 ⊛ z 1463),
(3996, z 167 ⊛ z 1591 ⊝ z 169 ⊛ z 1567),
(3997, z 166 ⊛ z 1567 ⊝ z 164 ⊛ z 1591),
(3998, z 159 ⊛ z 1567 ⊝ z 160 ⊛ z 1591),
(3999, z 155 ⊛ z 1591 ⊝ z 157 ⊛ z 1567),
(4000, z 154 ⊛ z 1567 ⊝ z 152 ⊛ z 1591),
(4001, z 148 ⊛ z 1567 ⊝ z 149 ⊛ z 1591),
(4002, T7 ⊛ z 3984 ⊹ T4 ⊛ z 6 ⊛ z 3985 ⊹ z 406 ⊛ (z 106 ⊛ z 3986 ⊹ z 107 ⊛ z 3987 ⊹ z 108 ⊛ z
    3988) ⊹ z 402 ⊛ (z 4 ⊛ z 3989 ⊹ z 32 ⊛ z 3990 ⊝ z 42 ⊛ z 3991) ⊹ z 3992 ⊛ z 408 ⊹ z 14 ⊛ z
    3985 ⊛ z 409 ⊝ T7 ⊛ z 3985 ⊝ T4 ⊛ z 5 ⊛ z 50 ⊛ z 1567 ⊝ z 404 ⊛ (z 42 ⊛ z 3993 ⊝ z 4 ⊛ z 3994
    ⊝ z 32 ⊛ z 3995 ⊝ z 32 ⊛ z 3996 ⊝ z 733 ⊛ z 3997 ⊝ z 734 ⊛ z 3998) ⊝ z 405 ⊛ (z 42 ⊛ z 3993 ⊝
    z 4 ⊛ z 3994 ⊝ z 32 ⊛ z 3995 ⊝ z 32 ⊛ z 3999 ⊝ z 733 ⊛ z 4000 ⊝ z 734 ⊛ z 4001) ⊝ z 13 ⊛ z 50
    ⊛ z 1567 ⊛ z 409),
(4003, z 921 ⊛ z 1567 ⊝ z 929 ⊛ z 1591)]

/-- _mooreriderlean2012.py:8669-8797 -/
def part75 : List (ℕ × E) := [
(4004, z 4003 ⊹ z 542 ⊛ z 3981 ⊹ z 940 ⊛ z 1568 ⊹ z 944 ⊛ z 1682 ⊹ z 947 ⊛ z 1520 ⊝ z 539 ⊛ z 3979
    ⊝ z 545 ⊛ z 3877 ⊝ z 550 ⊛ z 3977 ⊝ z 946 ⊛ z 1464),
(4005, z 907 ⊛ z 1524 ⊹ z 924 ⊛ z 1567 ⊝ z 906 ⊛ z 1463 ⊝ z 932 ⊛ z 1591),
(4006, z 950 ⊛ z 3728 ⊹ z 960 ⊛ z 4004 ⊝ z 945 ⊛ z 3726 ⊝ z 964 ⊛ z 4005),
(4007, z 92 ⊛ z 845 ⊹ z 836 ⊛ z 1455 ⊹ if11 ⊛ z 92 ⊛ z 1465 ⊹ if11 ⊛ z 93 ⊛ z 97),
(4008, z 4007 ⊹ z 544 ⊛ z 3740 ⊹ z 547 ⊛ z 3739 ⊹ z 899 ⊛ z 1463 ⊹ z 900 ⊛ z 1524 ⊹ z 922 ⊛ z 1567
    ⊝ z 930 ⊛ z 1591),
(4009, z 4008 ⊹ z 543 ⊛ z 3981 ⊹ z 548 ⊛ z 3975 ⊹ z 551 ⊛ z 3977 ⊹ z 940 ⊛ z 1569 ⊹ z 946 ⊛ z 1467
    ⊝ z 540 ⊛ z 3979 ⊝ z 546 ⊛ z 3877 ⊝ z 941 ⊛ z 1592 ⊝ z 944 ⊛ z 1681 ⊝ z 947 ⊛ z 1522),
(4010, z 950 ⊛ z 3749 ⊹ z 965 ⊛ z 4004 ⊝ z 951 ⊛ z 3726 ⊝ z 964 ⊛ z 4009),
(4011, z 951 ⊛ z 3728 ⊹ z 960 ⊛ z 4009 ⊝ z 945 ⊛ z 3749 ⊝ z 965 ⊛ z 4005),
(4012, z 983 ⊛ z 4006 ⊹ z 997 ⊛ z 3720 ⊝ z 905 ⊛ z 4010 ⊝ z 982 ⊛ z 4011 ⊝ z 999 ⊛ z 3751),
(4013, z 75 ⊛ z 3799 ⊹ z 79 ⊛ z 3808 ⊹ z 93 ⊛ z 847 ⊹ z 93 ⊛ z 848 ⊹ z 93 ⊛ z 3815 ⊹ z 96 ⊛ z 3821
    ⊹ z 1465 ⊛ z 837 ⊹ z 1465 ⊛ z 850 ⊹ ie11 ⊛ z 75 ⊛ z 3788 ⊹ ie31 ⊛ z 75 ⊛ z 3794 ⊹ ie31 ⊛ z 79
    ⊛ z 3788 ⊹ ie33 ⊛ z 79 ⊛ z 3794 ⊹ if11 ⊛ z 93 ⊛ z 3813 ⊹ if11 ⊛ z 96 ⊛ z 3820 ⊹ me ⊛ z 161 ⊛
    (z 3863 ⊹ z 9 ⊛ z 3861 ⊝ z 10 ⊛ z 3860) ⊹ mf ⊛ z 150 ⊛ (z 3867 ⊹ z 9 ⊛ z 3861 ⊝ z 10 ⊛ z
    3860)),
(4014, z 4013 ⊹ z 543 ⊛ z 3874 ⊹ z 548 ⊛ z 3872 ⊹ z 551 ⊛ z 3873 ⊹ z 1467 ⊛ z 913 ⊹ z 1569 ⊛ z 925
    ⊝ z 540 ⊛ z 3870 ⊝ z 546 ⊛ z 3871 ⊝ z 1522 ⊛ z 917 ⊝ z 1592 ⊛ z 933 ⊝ z 1681 ⊛ z 938),
(4015, z 4014 ⊹ z 967 ⊛ z 3976 ⊹ z 972 ⊛ z 3982 ⊹ z 3731 ⊛ z 665 ⊹ z 3734 ⊛ z 667 ⊹ z 3735 ⊛ z 669
    ⊹ z 3745 ⊛ z 668 ⊝ z 970 ⊛ z 3973 ⊝ z 971 ⊛ z 3980 ⊝ z 975 ⊛ z 3978 ⊝ z 3730 ⊛ z 666),
(4016, z 52 ⊛ z 1569 ⊝ z 78 ⊛ z 1592),
(4017, z 52 ⊛ z 1569 ⊝ z 48 ⊛ z 1592),
(4018, z 182 ⊛ z 1467 ⊹ z 211 ⊛ z 1569 ⊝ z 183 ⊛ z 1522 ⊝ z 210 ⊛ z 1592),
(4019, z 187 ⊛ z 1467 ⊹ z 214 ⊛ z 1569 ⊝ z 188 ⊛ z 1522 ⊝ z 213 ⊛ z 1592),
(4020, z 192 ⊛ z 1467 ⊹ z 217 ⊛ z 1569 ⊝ z 193 ⊛ z 1522 ⊝ z 216 ⊛ z 1592),
(4021, z 130 ⊛ z 1569 ⊝ z 121 ⊛ z 1467 ⊝ z 124 ⊛ z 1522 ⊝ z 128 ⊛ z 1592),
(4022, z 122 ⊛ z 1467 ⊹ z 132 ⊛ z 1592 ⊹ z 138 ⊛ z 1569 ⊝ z 125 ⊛ z 1522),
(4023, z 120 ⊛ z 1467 ⊹ z 137 ⊛ z 1569 ⊝ z 123 ⊛ z 1522 ⊝ z 135 ⊛ z 1592),
(4024, z 110 ⊛ z 1569 ⊝ z 111 ⊛ z 1592),
(4025, z 120 ⊛ z 1467 ⊝ z 123 ⊛ z 1522 ⊝ z 126 ⊛ z 1569),
(4026, z 145 ⊛ z 1569 ⊝ z 121 ⊛ z 1467 ⊝ z 124 ⊛ z 1522 ⊝ z 143 ⊛ z 1592),
(4027, z 122 ⊛ z 1467 ⊹ z 141 ⊛ z 1592 ⊹ z 146 ⊛ z 1569 ⊝ z 125 ⊛ z 1522),
(4028, z 167 ⊛ z 1592 ⊝ z 169 ⊛ z 1569),
(4029, z 159 ⊛ z 1569 ⊝ z 160 ⊛ z 1592),
(4030, z 166 ⊛ z 1569 ⊝ z 164 ⊛ z 1592),
(4031, z 155 ⊛ z 1592 ⊝ z 157 ⊛ z 1569),
(4032, z 154 ⊛ z 1569 ⊝ z 152 ⊛ z 1592),
(4033, z 148 ⊛ z 1569 ⊝ z 149 ⊛ z 1592),
(4034, T7 ⊛ z 4016 ⊹ T4 ⊛ z 6 ⊛ z 4017 ⊹ z 406 ⊛ (z 106 ⊛ z 4018 ⊹ z 107 ⊛ z 4019 ⊹ z 108 ⊛ z
    4020) ⊹ z 402 ⊛ (z 4 ⊛ z 4021 ⊹ z 32 ⊛ z 4022 ⊝ z 42 ⊛ z 4023) ⊹ z 4024 ⊛ z 408 ⊹ z 14 ⊛ z
    4017 ⊛ z 409 ⊝ T7 ⊛ z 4017 ⊝ T4 ⊛ z 5 ⊛ z 50 ⊛ z 1569 ⊝ z 404 ⊛ (z 42 ⊛ z 4025 ⊝ z 4 ⊛ z 4026
    ⊝ z 32 ⊛ z 4027 ⊝ z 32 ⊛ z 4028 ⊝ z 733 ⊛ z 4030 ⊝ z 734 ⊛ z 4029) ⊝ z 405 ⊛ (z 42 ⊛ z 4025 ⊝
    z 4 ⊛ z 4026 ⊝ z 32 ⊛ z 4027 ⊝ z 32 ⊛ z 4031 ⊝ z 733 ⊛ z 4032 ⊝ z 734 ⊛ z 4033) ⊝ z 13 ⊛ z 50
    ⊛ z 1569 ⊛ z 409),
(4035, z 950 ⊛ z 3727 ⊹ z 973 ⊛ z 4004 ⊝ z 945 ⊛ z 3736 ⊝ z 978 ⊛ z 4005),
(4036, z 950 ⊛ z 3746 ⊹ z 979 ⊛ z 4004 ⊝ z 951 ⊛ z 3736 ⊝ z 978 ⊛ z 4009),
(4037, z 951 ⊛ z 3727 ⊹ z 973 ⊛ z 4009 ⊝ z 945 ⊛ z 3746 ⊝ z 979 ⊛ z 4005),
(4038, z 983 ⊛ z 4035 ⊹ z 1013 ⊛ z 3720 ⊝ z 905 ⊛ z 4036 ⊝ z 982 ⊛ z 4037 ⊝ z 1014 ⊛ z 3751),
(4039, z 53 ⊛ (z 3769 ⊹ id22 ⊛ z 3764)),
(4040, z 4039 ⊹ z 542 ⊛ z 3874 ⊹ z 1520 ⊛ z 917 ⊹ z 1568 ⊛ z 925 ⊹ z 1682 ⊛ z 938 ⊝ z 539 ⊛ z 3870
    ⊝ z 545 ⊛ z 3871 ⊝ z 550 ⊛ z 3873 ⊝ z 1464 ⊛ z 913),
(4041, z 4040 ⊹ z 954 ⊛ z 3976 ⊹ z 958 ⊛ z 3982 ⊹ z 3722 ⊛ z 665 ⊹ z 3724 ⊛ z 667 ⊹ z 3725 ⊛ z 669
    ⊹ z 3748 ⊛ z 668 ⊝ z 955 ⊛ z 3973 ⊝ z 957 ⊛ z 3980 ⊝ z 961 ⊛ z 3978 ⊝ z 3721 ⊛ z 666),
(4042, z 183 ⊛ z 1520 ⊹ z 211 ⊛ z 1568 ⊝ z 182 ⊛ z 1464),
(4043, z 188 ⊛ z 1520 ⊹ z 214 ⊛ z 1568 ⊝ z 187 ⊛ z 1464),
(4044, z 193 ⊛ z 1520 ⊹ z 217 ⊛ z 1568 ⊝ z 192 ⊛ z 1464),
(4045, z 121 ⊛ z 1464 ⊹ z 124 ⊛ z 1520 ⊹ z 130 ⊛ z 1568),
(4046, z 125 ⊛ z 1520 ⊹ z 138 ⊛ z 1568 ⊝ z 122 ⊛ z 1464),
(4047, z 123 ⊛ z 1520 ⊹ z 137 ⊛ z 1568 ⊝ z 120 ⊛ z 1464),
(4048, z 121 ⊛ z 1464 ⊹ z 124 ⊛ z 1520 ⊹ z 145 ⊛ z 1568),
(4049, z 125 ⊛ z 1520 ⊹ z 146 ⊛ z 1568 ⊝ z 122 ⊛ z 1464),
(4050, z 123 ⊛ z 1520 ⊝ z 120 ⊛ z 1464 ⊝ z 126 ⊛ z 1568),
(4051, T4 ⊛ z 6 ⊛ z 52 ⊛ z 1568 ⊹ z 406 ⊛ (z 106 ⊛ z 4042 ⊹ z 107 ⊛ z 4043 ⊹ z 108 ⊛ z 4044) ⊹ z
    402 ⊛ (z 4 ⊛ z 4045 ⊹ z 32 ⊛ z 4046 ⊝ z 42 ⊛ z 4047) ⊹ z 110 ⊛ z 1568 ⊛ z 408 ⊹ z 14 ⊛ z 52 ⊛
    z 1568 ⊛ z 409 ⊝ T4 ⊛ z 5 ⊛ z 50 ⊛ z 1568 ⊝ z 404 ⊛ (z 42 ⊛ z 4050 ⊹ z 32 ⊛ z 169 ⊛ z 1568 ⊝ z
    4 ⊛ z 4048 ⊝ z 32 ⊛ z 4049 ⊝ z 159 ⊛ z 734 ⊛ z 1568 ⊝ z 166 ⊛ z 733 ⊛ z 1568) ⊝ z 405 ⊛ (z 42
    ⊛ z 4050 ⊹ z 32 ⊛ z 157 ⊛ z 1568 ⊝ z 4 ⊛ z 4048 ⊝ z 32 ⊛ z 4049 ⊝ z 148 ⊛ z 734 ⊛ z 1568 ⊝ z
    154 ⊛ z 733 ⊛ z 1568) ⊝ z 13 ⊛ z 50 ⊛ z 1568 ⊛ z 409),
(4052, z 979 ⊛ z 4006 ⊹ z 997 ⊛ z 3746 ⊝ z 973 ⊛ z 4010 ⊝ z 978 ⊛ z 4011 ⊝ z 995 ⊛ z 3727 ⊝ z 999
    ⊛ z 3736),
(4053, z 98 ⊛ z 3832 ⊹ z 99 ⊛ z 3837 ⊹ ig11 ⊛ z 98 ⊛ z 3824 ⊹ ig22 ⊛ z 99 ⊛ z 3835 ⊹ ig31 ⊛ z 98 ⊛
    z 3827 ⊝ mg ⊛ (z 200 ⊛ z 3851 ⊹ z 201 ⊛ z 3853 ⊝ z 205 ⊛ z 3846)),
(4054, z 4053 ⊹ z 903 ⊛ z 3976 ⊹ z 907 ⊛ z 3982 ⊝ z 902 ⊛ z 3973 ⊝ z 906 ⊛ z 3980),
(4055, z 92 ⊛ z 846 ⊹ z 835 ⊛ z 1455 ⊹ if11 ⊛ z 92 ⊛ z 97 ⊹ if11 ⊛ z 92 ⊛ z 1455),
(4056, if11 ⊛ z 90 ⊛ z 1455 ⊹ if11 ⊛ z 92 ⊛ z 94 ⊹ z 43 ⊛ z 88 ⊛ z 846 ⊹ z 43 ⊛ z 835 ⊛ z 1452),
(4057, z 91 ⊛ z 846 ⊹ z 835 ⊛ z 1458 ⊹ if11 ⊛ z 91 ⊛ z 1455 ⊹ if11 ⊛ z 92 ⊛ z 95),
(4058, z 4055 ⊹ z 544 ⊛ z 4056 ⊹ z 547 ⊛ z 4057 ⊹ z 888 ⊛ z 1524 ⊹ z 918 ⊛ z 1567 ⊝ z 887 ⊛ z 1463
    ⊝ z 926 ⊛ z 1591 ⊝ z 935 ⊛ z 1680),
(4059, z 4058 ⊹ z 538 ⊛ z 3979 ⊹ z 544 ⊛ z 3877 ⊹ z 547 ⊛ z 3975 ⊹ z 549 ⊛ z 3977 ⊹ z 940 ⊛ z 1567
    ⊹ z 947 ⊛ z 1524 ⊝ z 541 ⊛ z 3981 ⊝ z 941 ⊛ z 1591 ⊝ z 944 ⊛ z 1680 ⊝ z 946 ⊛ z 1463),
(4060, z 888 ⊛ z 1520 ⊹ z 918 ⊛ z 1568 ⊹ z 935 ⊛ z 1682 ⊝ z 545 ⊛ z 4056 ⊝ z 887 ⊛ z 1464),
(4061, z 4060 ⊹ z 538 ⊛ z 3722 ⊹ z 544 ⊛ z 3724 ⊹ z 547 ⊛ z 3748 ⊹ z 549 ⊛ z 3725 ⊹ z 955 ⊛ z 1567
    ⊹ z 958 ⊛ z 1524 ⊝ z 541 ⊛ z 3721 ⊝ z 954 ⊛ z 1591 ⊝ z 957 ⊛ z 1463 ⊝ z 961 ⊛ z 1680),
(4062, z 949 ⊛ z 3726 ⊹ z 964 ⊛ z 4059 ⊝ z 950 ⊛ z 4061 ⊝ z 963 ⊛ z 4004),
(4063, z 905 ⊛ z 3746 ⊝ z 973 ⊛ z 3720 ⊝ z 983 ⊛ z 3727),
(4064, z 949 ⊛ z 3728 ⊹ z 960 ⊛ z 4059 ⊝ z 945 ⊛ z 4061 ⊝ z 963 ⊛ z 4005),
(4065, z 978 ⊛ z 3720 ⊹ z 983 ⊛ z 3736 ⊝ z 979 ⊛ z 3751 ⊝ z 982 ⊛ z 3746),
(4066, z 93 ⊛ z 846 ⊹ z 835 ⊛ z 1465 ⊹ if11 ⊛ z 92 ⊛ z 96 ⊹ if11 ⊛ z 93 ⊛ z 1455),
(4067, z 4066 ⊹ z 548 ⊛ z 4057 ⊹ z 887 ⊛ z 1467 ⊹ z 918 ⊛ z 1569 ⊝ z 546 ⊛ z 4056 ⊝ z 888 ⊛ z 1522
    ⊝ z 926 ⊛ z 1592 ⊝ z 935 ⊛ z 1681),
(4068, z 4067 ⊹ z 538 ⊛ z 3731 ⊹ z 544 ⊛ z 3734 ⊹ z 547 ⊛ z 3745 ⊹ z 549 ⊛ z 3735 ⊹ z 970 ⊛ z 1567
    ⊹ z 972 ⊛ z 1524 ⊝ z 541 ⊛ z 3730 ⊝ z 967 ⊛ z 1591 ⊝ z 971 ⊛ z 1463 ⊝ z 975 ⊛ z 1680),
(4069, z 902 ⊛ z 1567 ⊹ z 907 ⊛ z 1524 ⊝ z 903 ⊛ z 1591 ⊝ z 906 ⊛ z 1463),
(4070, z 905 ⊛ z 4068 ⊝ z 973 ⊛ z 4069 ⊝ z 981 ⊛ z 3727),
(4071, z 977 ⊛ z 3751 ⊹ z 982 ⊛ z 4068 ⊝ z 978 ⊛ z 4069 ⊝ z 981 ⊛ z 3736),
(4072, z 949 ⊛ z 3749 ⊹ z 965 ⊛ z 4059 ⊝ z 951 ⊛ z 4061 ⊝ z 963 ⊛ z 4009),
(4073, z 905 ⊛ z 3736 ⊝ z 973 ⊛ z 3751 ⊝ z 982 ⊛ z 3727),
(4074, z 977 ⊛ z 3720 ⊹ z 983 ⊛ z 4068 ⊝ z 979 ⊛ z 4069 ⊝ z 981 ⊛ z 3746),
(4075, z 989 ⊛ z 4063 ⊹ z 990 ⊛ z 4062 ⊹ z 993 ⊛ z 4065 ⊹ z 994 ⊛ z 4064 ⊹ z 995 ⊛ z 4070 ⊹ z 996
    ⊛ z 4010 ⊹ z 999 ⊛ z 4071 ⊹ z 1000 ⊛ z 4011 ⊝ z 991 ⊛ z 4073 ⊝ z 992 ⊛ z 4072 ⊝ z 997 ⊛ z 4074
    ⊝ z 998 ⊛ z 4006),
(4076, (z 4075 ⊛ (z 1005 ⊛ z 985 ⊹ z 1022 ⊛ z 987 ⊝ z 1015 ⊛ z 986 ⊝ z 1026 ⊛ z 988) ⊝ z 1001 ⊛ (z
    3753 ⊛ z 985 ⊹ z 4012 ⊛ z 987 ⊹ z 1015 ⊛ (z 4051 ⊝ z 4041) ⊝ z 1026 ⊛ z 4054 ⊝ z 4038 ⊛ z 986
    ⊝ z 4052 ⊛ z 988 ⊝ z 1005 ⊛ (z 4002 ⊝ z 3983) ⊝ z 1022 ⊛ (z 4034 ⊝ z 4015))) ⊘ pow (z 1001) 2),
(4077, z 13 ⊛ z 17 ⊛ z 125 ⊝ z 15 ⊛ z 124 ⊝ z 14 ⊛ z 17 ⊛ z 123),
(4078, z 15 ⊛ (z 17 ⊝ z 13 ⊛ z 20 ⊝ z 14 ⊛ z 18)),
(4079, z 14 ⊛ z 15 ⊛ z 123 ⊝ z 17 ⊛ z 124 ⊝ z 13 ⊛ z 15 ⊛ z 125)]

/-- _mooreriderlean2012.py:8798-8917 -/
def part76 : List (ℕ × E) := [
(4080, mg ⊛ (z 200 ⊛ z 4077 ⊹ z 201 ⊛ z 4079 ⊹ n 2 ⊛ l6 ⊛ z 188 ⊛ z 4078)),
(4081, neg (z 17) ⊛ z 47 ⊝ z 13 ⊛ z 15 ⊛ z 48),
(4082, z 13 ⊛ z 17 ⊛ z 48 ⊝ z 15 ⊛ z 47),
(4083, z 15 ⊛ z 172 ⊹ z 13 ⊛ z 17 ⊛ z 174 ⊝ z 14 ⊛ z 17 ⊛ z 177),
(4084, z 17 ⊛ z 172 ⊹ z 14 ⊛ z 15 ⊛ z 177 ⊝ z 13 ⊛ z 15 ⊛ z 174),
(4085, n 2 ⊛ z 857 ⊛ z 4078 ⊹ n 2 ⊛ z 870 ⊛ z 4078 ⊹ ig22 ⊛ z 99 ⊛ z 4082 ⊹ ig31 ⊛ z 98 ⊛ z 4081 ⊹
    mg ⊛ (l6 ⊛ z 205 ⊛ z 4082 ⊝ n 2 ⊛ l6 ⊛ z 213 ⊛ z 4078 ⊝ z 200 ⊛ (z 4083 ⊹ l5 ⊛ z 4081) ⊝ z 201
    ⊛ (z 4084 ⊝ l5 ⊛ z 4082))),
(4086, z 15 ⊛ z 121 ⊹ z 13 ⊛ z 17 ⊛ z 122 ⊝ z 14 ⊛ z 17 ⊛ z 120),
(4087, z 17 ⊛ z 121 ⊹ z 14 ⊛ z 15 ⊛ z 120 ⊝ z 13 ⊛ z 15 ⊛ z 122),
(4088, mg ⊛ (z 200 ⊛ z 4086 ⊹ z 201 ⊛ z 4087 ⊹ n 2 ⊛ l6 ⊛ z 187 ⊛ z 4078)),
(4089, neg (z 4) ⊛ z 17 ⊝ z 13 ⊛ z 15 ⊛ z 32 ⊝ z 14 ⊛ z 15 ⊛ z 42),
(4090, z 13 ⊛ z 17 ⊛ z 32 ⊹ z 14 ⊛ z 17 ⊛ z 42 ⊝ z 4 ⊛ z 15),
(4091, z 13 ⊛ z 17 ⊛ z 180 ⊝ z 15 ⊛ z 171 ⊝ z 14 ⊛ z 17 ⊛ z 179),
(4092, z 4091 ⊹ l5 ⊛ z 43 ⊛ z 4089),
(4093, z 14 ⊛ z 15 ⊛ z 179 ⊝ z 17 ⊛ z 171 ⊝ z 13 ⊛ z 15 ⊛ z 180),
(4094, z 4093 ⊝ l5 ⊛ z 43 ⊛ z 4090),
(4095, n 2 ⊛ z 856 ⊛ z 4078 ⊹ n 2 ⊛ z 869 ⊛ z 4078 ⊹ ig22 ⊛ z 43 ⊛ z 99 ⊛ z 4090 ⊹ ig31 ⊛ z 43 ⊛ z
    98 ⊛ z 4089 ⊝ mg ⊛ (z 200 ⊛ z 4092 ⊹ z 201 ⊛ z 4094 ⊹ n 2 ⊛ l6 ⊛ z 214 ⊛ z 4078 ⊝ l6 ⊛ z 43 ⊛
    z 205 ⊛ z 4090)),
(4096, z 540 ⊛ z 4088 ⊹ z 548 ⊛ z 4085 ⊝ z 543 ⊛ z 4080 ⊝ z 546 ⊛ z 4095),
(4097, mg ⊛ (z 188 ⊛ z 4077 ⊹ z 193 ⊛ z 4079)),
(4098, mg ⊛ (z 187 ⊛ z 4077 ⊹ z 188 ⊛ z 4086 ⊹ z 192 ⊛ z 4079 ⊹ z 193 ⊛ z 4087)),
(4099, mg ⊛ (z 188 ⊛ z 4092 ⊹ z 193 ⊛ z 4094 ⊹ z 214 ⊛ z 4077 ⊹ z 217 ⊛ z 4079 ⊹ l6 ⊛ z 43 ⊛ z 183
    ⊛ z 4090)),
(4100, n 2 ⊛ z 542 ⊛ z 4097 ⊝ z 539 ⊛ z 4098 ⊝ z 545 ⊛ z 4099),
(4101, mg ⊛ (z 187 ⊛ z 4086 ⊹ z 192 ⊛ z 4087)),
(4102, mg ⊛ (z 187 ⊛ z 4092 ⊹ z 192 ⊛ z 4094 ⊹ z 214 ⊛ z 4086 ⊹ z 217 ⊛ z 4087 ⊹ l6 ⊛ z 43 ⊛ z 182
    ⊛ z 4090)),
(4103, z 542 ⊛ z 4098 ⊝ n 2 ⊛ z 539 ⊛ z 4101 ⊝ z 545 ⊛ z 4102),
(4104, z 43 ⊛ z 861 ⊛ z 4089 ⊹ z 43 ⊛ z 865 ⊛ z 4090 ⊹ z 43 ⊛ z 873 ⊛ z 4089 ⊹ ig22 ⊛ z 43 ⊛ z 112
    ⊛ z 4090 ⊹ ig31 ⊛ z 43 ⊛ z 110 ⊛ z 4089 ⊹ ig33 ⊛ z 43 ⊛ z 115 ⊛ z 4089 ⊹ n 2 ⊛ mg ⊛ (z 214 ⊛ z
    4092 ⊹ z 217 ⊛ z 4094 ⊹ l6 ⊛ z 43 ⊛ z 211 ⊛ z 4090)),
(4105, z 542 ⊛ z 4099 ⊝ z 539 ⊛ z 4102 ⊝ z 545 ⊛ z 4104),
(4106, z 542 ⊛ z 4100 ⊝ z 539 ⊛ z 4103 ⊝ z 545 ⊛ z 4105),
(4107, z 859 ⊛ z 4081 ⊹ z 864 ⊛ z 4082 ⊹ n 2 ⊛ ig11 ⊛ z 111 ⊛ z 4078 ⊹ n 2 ⊛ ig31 ⊛ z 116 ⊛ z 4078
    ⊹ mg ⊛ (l6 ⊛ z 205 ⊛ z 4082 ⊝ n 2 ⊛ l6 ⊛ z 213 ⊛ z 4078 ⊝ z 200 ⊛ (z 4083 ⊹ l5 ⊛ z 4081) ⊝ z
    201 ⊛ (z 4084 ⊝ l5 ⊛ z 4082))),
(4108, z 43 ⊛ z 859 ⊛ z 4089 ⊹ z 43 ⊛ z 864 ⊛ z 4090 ⊹ n 2 ⊛ ig11 ⊛ z 110 ⊛ z 4078 ⊹ n 2 ⊛ ig31 ⊛
    z 115 ⊛ z 4078 ⊝ mg ⊛ (z 200 ⊛ z 4092 ⊹ z 201 ⊛ z 4094 ⊹ n 2 ⊛ l6 ⊛ z 214 ⊛ z 4078 ⊝ l6 ⊛ z 43
    ⊛ z 205 ⊛ z 4090)),
(4109, z 540 ⊛ z 4088 ⊹ z 548 ⊛ z 4107 ⊝ z 543 ⊛ z 4080 ⊝ z 546 ⊛ z 4108),
(4110, z 539 ⊛ z 4088 ⊝ z 542 ⊛ z 4080 ⊝ z 545 ⊛ z 4108),
(4111, mg ⊛ (z 213 ⊛ z 4077 ⊹ z 216 ⊛ z 4079 ⊹ l6 ⊛ z 183 ⊛ z 4082 ⊹ z 188 ⊛ (z 4083 ⊹ l5 ⊛ z
    4081) ⊹ z 193 ⊛ (z 4084 ⊝ l5 ⊛ z 4082))),
(4112, z 548 ⊛ z 4111 ⊹ n 2 ⊛ z 543 ⊛ z 4097 ⊝ z 540 ⊛ z 4098 ⊝ z 546 ⊛ z 4099),
(4113, mg ⊛ (z 213 ⊛ z 4086 ⊹ z 216 ⊛ z 4087 ⊹ l6 ⊛ z 182 ⊛ z 4082 ⊹ z 187 ⊛ (z 4083 ⊹ l5 ⊛ z
    4081) ⊹ z 192 ⊛ (z 4084 ⊝ l5 ⊛ z 4082))),
(4114, z 543 ⊛ z 4098 ⊹ z 548 ⊛ z 4113 ⊝ n 2 ⊛ z 540 ⊛ z 4101 ⊝ z 546 ⊛ z 4102),
(4115, z 861 ⊛ z 4081 ⊹ z 865 ⊛ z 4082 ⊹ z 873 ⊛ z 4081 ⊹ ig22 ⊛ z 43 ⊛ z 114 ⊛ z 4090 ⊹ ig31 ⊛ z
    43 ⊛ z 111 ⊛ z 4089 ⊹ ig33 ⊛ z 43 ⊛ z 116 ⊛ z 4089 ⊹ mg ⊛ (z 213 ⊛ z 4092 ⊹ z 216 ⊛ z 4094 ⊹
    l6 ⊛ z 211 ⊛ z 4082 ⊹ l6 ⊛ z 43 ⊛ z 210 ⊛ z 4090 ⊹ z 214 ⊛ (z 4083 ⊹ l5 ⊛ z 4081) ⊹ z 217 ⊛ (z
    4084 ⊝ l5 ⊛ z 4082))),
(4116, z 543 ⊛ z 4099 ⊹ z 548 ⊛ z 4115 ⊝ z 540 ⊛ z 4102 ⊝ z 546 ⊛ z 4104),
(4117, z 542 ⊛ z 4112 ⊝ z 539 ⊛ z 4114 ⊝ z 545 ⊛ z 4116),
(4118, z 964 ⊛ z 4109 ⊹ z 973 ⊛ z 4106 ⊝ z 960 ⊛ z 4117 ⊝ z 978 ⊛ z 4110),
(4120, z 4078 ⊛ (z 854 ⊹ ig11 ⊛ z 98 ⊹ n 2 ⊛ z 4119 ⊛ z 200)),
(4121, z 862 ⊛ z 4081 ⊹ z 867 ⊛ z 4082 ⊹ z 874 ⊛ z 4081 ⊹ ig22 ⊛ z 114 ⊛ z 4082 ⊹ ig31 ⊛ z 111 ⊛ z
    4081 ⊹ ig33 ⊛ z 116 ⊛ z 4081 ⊹ n 2 ⊛ mg ⊛ (l6 ⊛ z 210 ⊛ z 4082 ⊹ z 213 ⊛ (z 4083 ⊹ l5 ⊛ z
    4081) ⊹ z 216 ⊛ (z 4084 ⊝ l5 ⊛ z 4082))),
(4122, ig22 ⊛ z 112 ⊛ z 4082 ⊹ ig31 ⊛ z 110 ⊛ z 4081 ⊹ ig33 ⊛ z 115 ⊛ z 4081 ⊹ z 43 ⊛ z 862 ⊛ z
    4089 ⊹ z 43 ⊛ z 867 ⊛ z 4090 ⊹ z 43 ⊛ z 874 ⊛ z 4089 ⊹ mg ⊛ (z 213 ⊛ z 4092 ⊹ z 216 ⊛ z 4094 ⊹
    l6 ⊛ z 211 ⊛ z 4082 ⊹ l6 ⊛ z 43 ⊛ z 210 ⊛ z 4090 ⊹ z 214 ⊛ (z 4083 ⊹ l5 ⊛ z 4081) ⊹ z 217 ⊛ (z
    4084 ⊝ l5 ⊛ z 4082))),
(4123, z 543 ⊛ z 4111 ⊹ z 548 ⊛ z 4121 ⊝ z 540 ⊛ z 4113 ⊝ z 546 ⊛ z 4122),
(4124, z 543 ⊛ z 4112 ⊹ z 548 ⊛ z 4123 ⊝ z 540 ⊛ z 4114 ⊝ z 546 ⊛ z 4116),
(4125, z 542 ⊛ z 4111 ⊝ z 539 ⊛ z 4113 ⊝ z 545 ⊛ z 4122),
(4126, z 543 ⊛ z 4100 ⊹ z 548 ⊛ z 4125 ⊝ z 540 ⊛ z 4103 ⊝ z 546 ⊛ z 4105),
(4127, z 964 ⊛ z 4124 ⊹ z 979 ⊛ z 4106 ⊝ z 965 ⊛ z 4117 ⊝ z 978 ⊛ z 4126),
(4128, z 539 ⊛ z 4088 ⊝ z 542 ⊛ z 4080 ⊝ z 545 ⊛ z 4095),
(4129, z 965 ⊛ z 4109 ⊹ z 973 ⊛ z 4126 ⊝ z 960 ⊛ z 4124 ⊝ z 979 ⊛ z 4110),
(4130, z 983 ⊛ z 4118 ⊹ z 1003 ⊛ z 4096 ⊝ n 2 ⊛ z 1002 ⊛ z 4120 ⊝ z 905 ⊛ z 4127 ⊝ z 982 ⊛ z 4129
    ⊝ z 1004 ⊛ z 4128),
(4131, n 2 ⊛ pow (z 17) 2 ⊛ q9p ⊹ n 2 ⊛ z 13 ⊛ z 15 ⊛ z 338 ⊹ n 2 ⊛ z 14 ⊛ z 15 ⊛ z 337 ⊝ n 2 ⊛
    pow (z 15) 2 ⊛ q9p ⊝ n 2 ⊛ z 13 ⊛ z 17 ⊛ z 20 ⊛ q9p ⊝ n 2 ⊛ z 14 ⊛ z 17 ⊛ z 18 ⊛ q9p),
(4132, z 15 ⊛ z 46 ⊛ q9p ⊹ z 14 ⊛ z 17 ⊛ z 45 ⊛ q9p ⊹ z 14 ⊛ z 15 ⊛ z 270 ⊝ z 13 ⊛ z 17 ⊛ z 49 ⊛
    q9p ⊝ z 17 ⊛ z 274 ⊝ z 13 ⊛ z 15 ⊛ z 279),
(4133, z 15 ⊛ z 47 ⊛ q9p ⊝ z 13 ⊛ z 17 ⊛ z 48 ⊛ q9p ⊝ z 17 ⊛ z 275 ⊝ z 13 ⊛ z 15 ⊛ z 278),
(4134, z 4 ⊛ z 15 ⊛ q9p ⊝ z 3 ⊛ z 17 ⊛ q4p ⊝ z 13 ⊛ z 17 ⊛ z 32 ⊛ q9p ⊝ z 14 ⊛ z 17 ⊛ z 42 ⊛ q9p ⊝
    z 13 ⊛ z 15 ⊛ z 268 ⊝ z 14 ⊛ z 15 ⊛ z 271),
(4135, q4p ⊛ z 4132 ⊹ q5p ⊛ z 4133 ⊹ z 43 ⊛ q3p ⊛ z 4134),
(4136, z 13 ⊛ z 17 ⊛ z 49 ⊝ z 15 ⊛ z 46 ⊝ z 14 ⊛ z 17 ⊛ z 45),
(4137, z 4082 ⊛ q5p ⊹ z 4136 ⊛ q4p ⊹ z 43 ⊛ z 4090 ⊛ q3p),
(4138, z 14 ⊛ z 15 ⊛ z 45 ⊝ z 17 ⊛ z 46 ⊝ z 13 ⊛ z 15 ⊛ z 49),
(4139, z 4081 ⊛ q5p ⊹ z 4138 ⊛ q4p ⊹ z 43 ⊛ z 4089 ⊛ q3p),
(4140, n 2 ⊛ ig31 ⊛ z 4078 ⊛ q9p ⊹ ig33 ⊛ z 4139),
(4141, z 335 ⊛ z 4140 ⊹ z 852 ⊛ z 4137 ⊝ z 853 ⊛ z 4139 ⊝ ig22 ⊛ z 336 ⊛ z 4137),
(4142, z 14 ⊛ z 15 ⊛ z 45 ⊛ q9p ⊹ z 13 ⊛ z 17 ⊛ z 279 ⊝ z 17 ⊛ z 46 ⊛ q9p ⊝ z 13 ⊛ z 15 ⊛ z 49 ⊛
    q9p ⊝ z 15 ⊛ z 274 ⊝ z 14 ⊛ z 17 ⊛ z 270),
(4143, z 13 ⊛ z 17 ⊛ z 278 ⊝ z 17 ⊛ z 47 ⊛ q9p ⊝ z 13 ⊛ z 15 ⊛ z 48 ⊛ q9p ⊝ z 15 ⊛ z 275),
(4144, z 13 ⊛ z 17 ⊛ z 268 ⊹ z 14 ⊛ z 17 ⊛ z 271 ⊝ z 3 ⊛ z 15 ⊛ q4p ⊝ z 4 ⊛ z 17 ⊛ q9p ⊝ z 13 ⊛ z
    15 ⊛ z 32 ⊛ q9p ⊝ z 14 ⊛ z 15 ⊛ z 42 ⊛ q9p),
(4145, q4p ⊛ z 4142 ⊹ q5p ⊛ z 4143 ⊹ z 43 ⊛ q3p ⊛ z 4144),
(4146, n 2 ⊛ ig11 ⊛ z 4078 ⊛ q9p ⊹ ig31 ⊛ z 4139),
(4147, z 336 ⊛ z 4146 ⊹ z 851 ⊛ z 4139 ⊝ z 334 ⊛ z 4140 ⊝ n 2 ⊛ z 4078 ⊛ q9p ⊛ z 852),
(4148, ig22 ⊛ z 334 ⊛ z 4137 ⊹ n 2 ⊛ z 4078 ⊛ q9p ⊛ z 853 ⊝ z 335 ⊛ z 4146 ⊝ z 851 ⊛ z 4137),
(4149, l6 ⊛ z 4145 ⊹ (n 2 ⊛ l6 ⊛ z 4078 ⊛ q9p ⊝ l5 ⊛ z 4081 ⊛ q5p ⊝ l5 ⊛ z 4138 ⊛ q4p ⊝ l5 ⊛ z 43
    ⊛ z 4089 ⊛ q3p) ⊛ z 336 ⊝ (z 201 ⊛ q9p ⊹ z 202 ⊛ q3p ⊹ z 203 ⊛ q4p ⊹ z 204 ⊛ q5p) ⊛ z 4137 ⊝
    l5 ⊛ (z 4082 ⊛ q5p ⊹ z 4136 ⊛ q4p ⊹ z 43 ⊛ z 4090 ⊛ q3p) ⊛ z 335 ⊝ (z 197 ⊛ q3p ⊹ z 198 ⊛ q5p
    ⊹ z 199 ⊛ q4p ⊝ z 200 ⊛ q9p) ⊛ z 4139),
(4150, z 13 ⊛ z 17 ⊛ z 173 ⊝ z 15 ⊛ z 181 ⊝ z 14 ⊛ z 17 ⊛ z 176),
(4151, z 13 ⊛ z 17 ⊛ z 392 ⊝ z 15 ⊛ z 391 ⊝ z 14 ⊛ z 17 ⊛ z 390),
(4152, l5 ⊛ z 4135 ⊝ l6 ⊛ q9p ⊛ z 4131),
(4153, n 2 ⊛ z 4078 ⊛ q9p ⊛ (z 201 ⊛ q9p ⊹ z 202 ⊛ q3p ⊹ z 203 ⊛ q4p ⊹ z 204 ⊛ q5p) ⊹ z 4151 ⊹ z
    4152 ⊹ (z 205 ⊛ q9p ⊹ z 206 ⊛ q3p ⊹ z 207 ⊛ q4p ⊹ z 208 ⊛ q5p) ⊛ z 4139 ⊹ l5 ⊛ (z 4082 ⊛ q5p ⊹
    z 4136 ⊛ q4p ⊹ z 43 ⊛ z 4090 ⊛ q3p) ⊛ z 334 ⊹ l6 ⊛ (z 4082 ⊛ q5p ⊹ z 4136 ⊛ q4p ⊹ z 43 ⊛ z
    4090 ⊛ q3p) ⊛ z 336),
(4154, z 14 ⊛ z 15 ⊛ z 176 ⊝ z 17 ⊛ z 181 ⊝ z 13 ⊛ z 15 ⊛ z 173),
(4155, z 14 ⊛ z 15 ⊛ z 390 ⊝ z 17 ⊛ z 391 ⊝ z 13 ⊛ z 15 ⊛ z 392),
(4156, n 2 ⊛ z 4078 ⊛ q9p ⊛ (z 197 ⊛ q3p ⊹ z 198 ⊛ q5p ⊹ z 199 ⊛ q4p ⊝ z 200 ⊛ q9p) ⊹ z 4155 ⊝ l5
    ⊛ z 4145 ⊝ (z 205 ⊛ q9p ⊹ z 206 ⊛ q3p ⊹ z 207 ⊛ q4p ⊹ z 208 ⊛ q5p) ⊛ z 4137 ⊝ l6 ⊛ (z 4082 ⊛
    q5p ⊹ z 4136 ⊛ q4p ⊹ z 43 ⊛ z 4090 ⊛ q3p) ⊛ z 335 ⊝ (n 2 ⊛ l6 ⊛ z 4078 ⊛ q9p ⊝ l5 ⊛ z 4081 ⊛
    q5p ⊝ l5 ⊛ z 4138 ⊛ q4p ⊝ l5 ⊛ z 43 ⊛ z 4089 ⊛ q3p) ⊛ z 334)]

/-- _mooreriderlean2012.py:8918-9049 -/
def part77 : List (ℕ × E) := [
(4157, z 109 ⊛ z 4141 ⊹ z 113 ⊛ z 4147 ⊹ z 117 ⊛ z 4148 ⊹ z 4136 ⊛ z 868 ⊹ z 4136 ⊛ z 877 ⊹ z 4138
    ⊛ z 863 ⊹ z 4138 ⊛ z 876 ⊹ z 4138 ⊛ z 878 ⊹ ig22 ⊛ z 113 ⊛ z 4145 ⊹ ig31 ⊛ z 109 ⊛ z 4135 ⊹
    ig33 ⊛ z 117 ⊛ z 4135 ⊹ ig11 ⊛ z 109 ⊛ q9p ⊛ z 4131 ⊹ ig31 ⊛ z 117 ⊛ q9p ⊛ z 4131 ⊹ mg ⊛ (z
    209 ⊛ z 4149 ⊹ z 212 ⊛ z 4153 ⊹ z 215 ⊛ z 4156 ⊹ l6 ⊛ z 4136 ⊛ z 399 ⊹ (z 4150 ⊹ l5 ⊛ z 4138)
    ⊛ z 400 ⊹ (z 4154 ⊝ l5 ⊛ z 4136) ⊛ z 401)),
(4158, mg ⊛ (z 182 ⊛ z 4149 ⊹ z 187 ⊛ z 4153 ⊹ z 192 ⊛ z 4156 ⊹ z 4086 ⊛ z 400 ⊹ z 4087 ⊛ z 401)),
(4159, z 110 ⊛ z 4141 ⊹ z 112 ⊛ z 4147 ⊹ z 115 ⊛ z 4148 ⊹ ig22 ⊛ z 112 ⊛ z 4145 ⊹ ig31 ⊛ z 110 ⊛ z
    4135 ⊹ ig33 ⊛ z 115 ⊛ z 4135 ⊹ z 43 ⊛ z 4089 ⊛ z 863 ⊹ z 43 ⊛ z 4089 ⊛ z 876 ⊹ z 43 ⊛ z 4089 ⊛
    z 878 ⊹ z 43 ⊛ z 4090 ⊛ z 868 ⊹ z 43 ⊛ z 4090 ⊛ z 877 ⊹ ig11 ⊛ z 110 ⊛ q9p ⊛ z 4131 ⊹ ig31 ⊛ z
    115 ⊛ q9p ⊛ z 4131 ⊹ mg ⊛ (z 211 ⊛ z 4149 ⊹ z 214 ⊛ z 4153 ⊹ z 217 ⊛ z 4156 ⊹ z 4092 ⊛ z 400 ⊹
    z 4094 ⊛ z 401 ⊹ l6 ⊛ z 43 ⊛ z 4090 ⊛ z 399)),
(4160, z 111 ⊛ z 4141 ⊹ z 114 ⊛ z 4147 ⊹ z 116 ⊛ z 4148 ⊹ z 4081 ⊛ z 863 ⊹ z 4081 ⊛ z 876 ⊹ z 4081
    ⊛ z 878 ⊹ z 4082 ⊛ z 868 ⊹ z 4082 ⊛ z 877 ⊹ ig22 ⊛ z 114 ⊛ z 4145 ⊹ ig31 ⊛ z 111 ⊛ z 4135 ⊹
    ig33 ⊛ z 116 ⊛ z 4135 ⊹ ig11 ⊛ z 111 ⊛ q9p ⊛ z 4131 ⊹ ig31 ⊛ z 116 ⊛ q9p ⊛ z 4131 ⊹ mg ⊛ (z
    210 ⊛ z 4149 ⊹ z 213 ⊛ z 4153 ⊹ z 216 ⊛ z 4156 ⊹ l6 ⊛ z 4082 ⊛ z 399 ⊹ (z 4083 ⊹ l5 ⊛ z 4081)
    ⊛ z 400 ⊹ (z 4084 ⊝ l5 ⊛ z 4082) ⊛ z 401)),
(4161, mg ⊛ (z 183 ⊛ z 4149 ⊹ z 188 ⊛ z 4153 ⊹ z 193 ⊛ z 4156 ⊹ z 4077 ⊛ z 400 ⊹ z 4079 ⊛ z 401)),
(4162, z 4157 ⊹ z 538 ⊛ z 4158 ⊹ z 544 ⊛ z 4159 ⊹ z 547 ⊛ z 4160 ⊝ z 541 ⊛ z 4161),
(4163, z 861 ⊛ z 4138 ⊹ z 865 ⊛ z 4136 ⊹ z 873 ⊛ z 4138 ⊹ ig22 ⊛ z 43 ⊛ z 113 ⊛ z 4090 ⊹ ig31 ⊛ z
    43 ⊛ z 109 ⊛ z 4089 ⊹ ig33 ⊛ z 43 ⊛ z 117 ⊛ z 4089 ⊹ mg ⊛ (z 212 ⊛ z 4092 ⊹ z 215 ⊛ z 4094 ⊹
    l6 ⊛ z 211 ⊛ z 4136 ⊹ l6 ⊛ z 43 ⊛ z 209 ⊛ z 4090 ⊹ z 214 ⊛ (z 4150 ⊹ l5 ⊛ z 4138) ⊹ z 217 ⊛ (z
    4154 ⊝ l5 ⊛ z 4136))),
(4164, z 4163 ⊹ z 538 ⊛ z 4102 ⊹ z 544 ⊛ z 4104 ⊹ z 547 ⊛ z 4115 ⊝ z 541 ⊛ z 4099),
(4165, z 862 ⊛ z 4138 ⊹ z 867 ⊛ z 4136 ⊹ z 874 ⊛ z 4138 ⊹ ig22 ⊛ z 113 ⊛ z 4082 ⊹ ig31 ⊛ z 109 ⊛ z
    4081 ⊹ ig33 ⊛ z 117 ⊛ z 4081 ⊹ mg ⊛ (l6 ⊛ z 209 ⊛ z 4082 ⊹ l6 ⊛ z 210 ⊛ z 4136 ⊹ z 212 ⊛ (z
    4083 ⊹ l5 ⊛ z 4081) ⊹ z 213 ⊛ (z 4150 ⊹ l5 ⊛ z 4138) ⊹ z 215 ⊛ (z 4084 ⊝ l5 ⊛ z 4082) ⊹ z 216
    ⊛ (z 4154 ⊝ l5 ⊛ z 4136))),
(4166, z 4165 ⊹ z 538 ⊛ z 4113 ⊹ z 544 ⊛ z 4122 ⊹ z 547 ⊛ z 4121 ⊝ z 541 ⊛ z 4111),
(4167, mg ⊛ (z 212 ⊛ z 4086 ⊹ z 215 ⊛ z 4087 ⊹ l6 ⊛ z 182 ⊛ z 4136 ⊹ z 187 ⊛ (z 4150 ⊹ l5 ⊛ z
    4138) ⊹ z 192 ⊛ (z 4154 ⊝ l5 ⊛ z 4136))),
(4168, z 4167 ⊹ z 544 ⊛ z 4102 ⊹ z 547 ⊛ z 4113 ⊹ n 2 ⊛ z 538 ⊛ z 4101 ⊝ z 541 ⊛ z 4098),
(4169, mg ⊛ (z 212 ⊛ z 4077 ⊹ z 215 ⊛ z 4079 ⊹ l6 ⊛ z 183 ⊛ z 4136 ⊹ z 188 ⊛ (z 4150 ⊹ l5 ⊛ z
    4138) ⊹ z 193 ⊛ (z 4154 ⊝ l5 ⊛ z 4136))),
(4170, z 4169 ⊹ z 538 ⊛ z 4098 ⊹ z 544 ⊛ z 4099 ⊹ z 547 ⊛ z 4111 ⊝ n 2 ⊛ z 541 ⊛ z 4097),
(4171, z 4162 ⊹ z 4164 ⊛ z 667 ⊹ z 4166 ⊛ z 668 ⊹ z 4168 ⊛ z 665 ⊝ z 4170 ⊛ z 666),
(4172, l6 ⊛ (z 4136 ⊹ z 547 ⊛ z 4082 ⊹ z 43 ⊛ z 544 ⊛ z 4090)),
(4173, z 4150 ⊹ l5 ⊛ z 4138 ⊹ z 538 ⊛ z 4086 ⊹ z 544 ⊛ z 4092 ⊹ z 547 ⊛ (z 4083 ⊹ l5 ⊛ z 4081) ⊝ z
    541 ⊛ z 4077),
(4174, z 4154 ⊹ z 538 ⊛ z 4087 ⊹ z 544 ⊛ z 4094 ⊹ z 547 ⊛ (z 4084 ⊝ l5 ⊛ z 4082) ⊝ l5 ⊛ z 4136 ⊝ z
    541 ⊛ z 4079),
(4177, z 4175 ⊛ z 670 ⊹ z 4176 ⊛ z 672 ⊹ z 406 ⊛ (z 106 ⊛ z 4172 ⊹ z 107 ⊛ z 4173 ⊹ z 108 ⊛ z 4174
    ⊹ z 745 ⊛ z 4090 ⊹ z 746 ⊛ z 4089) ⊝ k9 ⊛ z 694),
(4178, z 542 ⊛ z 4170 ⊝ z 539 ⊛ z 4168 ⊝ z 545 ⊛ z 4164),
(4179, z 859 ⊛ z 4138 ⊹ z 864 ⊛ z 4136 ⊹ n 2 ⊛ ig11 ⊛ z 109 ⊛ z 4078 ⊹ n 2 ⊛ ig31 ⊛ z 117 ⊛ z 4078
    ⊹ mg ⊛ (l6 ⊛ z 205 ⊛ z 4136 ⊝ n 2 ⊛ l6 ⊛ z 212 ⊛ z 4078 ⊝ z 200 ⊛ (z 4150 ⊹ l5 ⊛ z 4138) ⊝ z
    201 ⊛ (z 4154 ⊝ l5 ⊛ z 4136))),
(4180, z 4179 ⊹ z 541 ⊛ z 4080 ⊹ z 544 ⊛ z 4108 ⊹ z 547 ⊛ z 4107 ⊝ z 538 ⊛ z 4088),
(4181, z 950 ⊛ z 4110 ⊹ z 960 ⊛ z 4178 ⊝ z 945 ⊛ z 4106 ⊝ z 964 ⊛ z 4180),
(4182, z 543 ⊛ z 4170 ⊹ z 548 ⊛ z 4166 ⊝ z 540 ⊛ z 4168 ⊝ z 546 ⊛ z 4164),
(4183, z 950 ⊛ z 4126 ⊹ z 965 ⊛ z 4178 ⊝ z 951 ⊛ z 4106 ⊝ z 964 ⊛ z 4182),
(4184, z 951 ⊛ z 4110 ⊹ z 960 ⊛ z 4182 ⊝ z 945 ⊛ z 4126 ⊝ z 965 ⊛ z 4180),
(4185, z 983 ⊛ z 4181 ⊹ z 997 ⊛ z 4096 ⊝ n 2 ⊛ z 995 ⊛ z 4120 ⊝ z 905 ⊛ z 4183 ⊝ z 982 ⊛ z 4184 ⊝
    z 999 ⊛ z 4128),
(4186, z 543 ⊛ z 4161 ⊹ z 548 ⊛ z 4160 ⊝ z 540 ⊛ z 4158 ⊝ z 546 ⊛ z 4159),
(4187, z 4186 ⊹ z 4114 ⊛ z 665 ⊹ z 4116 ⊛ z 667 ⊹ z 4123 ⊛ z 668 ⊝ z 4112 ⊛ z 666),
(4188, l6 ⊛ (z 548 ⊛ z 4082 ⊝ z 43 ⊛ z 546 ⊛ z 4090)),
(4189, z 543 ⊛ z 4077 ⊹ z 548 ⊛ (z 4083 ⊹ l5 ⊛ z 4081) ⊝ z 540 ⊛ z 4086 ⊝ z 546 ⊛ z 4092),
(4190, z 543 ⊛ z 4079 ⊹ z 548 ⊛ (z 4084 ⊝ l5 ⊛ z 4082) ⊝ z 540 ⊛ z 4087 ⊝ z 546 ⊛ z 4094),
(4191, z 4175 ⊛ z 676 ⊹ z 4176 ⊛ z 678 ⊹ z 406 ⊛ (z 106 ⊛ z 4188 ⊹ z 107 ⊛ z 4189 ⊹ z 108 ⊛ z 4190
    ⊹ z 751 ⊛ z 4090 ⊹ z 752 ⊛ z 4089) ⊝ k9 ⊛ z 700),
(4192, z 950 ⊛ z 4109 ⊹ z 973 ⊛ z 4178 ⊝ z 945 ⊛ z 4117 ⊝ z 978 ⊛ z 4180),
(4193, z 950 ⊛ z 4124 ⊹ z 979 ⊛ z 4178 ⊝ z 951 ⊛ z 4117 ⊝ z 978 ⊛ z 4182),
(4194, z 951 ⊛ z 4109 ⊹ z 973 ⊛ z 4182 ⊝ z 945 ⊛ z 4124 ⊝ z 979 ⊛ z 4180),
(4195, z 983 ⊛ z 4192 ⊹ z 1013 ⊛ z 4096 ⊝ n 2 ⊛ z 1012 ⊛ z 4120 ⊝ z 905 ⊛ z 4193 ⊝ z 982 ⊛ z 4194
    ⊝ z 1014 ⊛ z 4128),
(4196, z 542 ⊛ z 4161 ⊝ z 539 ⊛ z 4158 ⊝ z 545 ⊛ z 4159),
(4197, z 4196 ⊹ z 4103 ⊛ z 665 ⊹ z 4105 ⊛ z 667 ⊹ z 4125 ⊛ z 668 ⊝ z 4100 ⊛ z 666),
(4198, l6 ⊛ z 43 ⊛ z 545 ⊛ z 4090),
(4199, z 542 ⊛ z 4077 ⊝ z 539 ⊛ z 4086 ⊝ z 545 ⊛ z 4092),
(4200, z 542 ⊛ z 4079 ⊝ z 539 ⊛ z 4087 ⊝ z 545 ⊛ z 4094),
(4201, k9 ⊛ z 697 ⊹ z 4175 ⊛ z 673 ⊝ z 4176 ⊛ z 675 ⊝ z 406 ⊛ (z 106 ⊛ z 4198 ⊝ z 107 ⊛ z 4199 ⊝ z
    108 ⊛ z 4200 ⊝ z 748 ⊛ z 4090 ⊝ z 749 ⊛ z 4089)),
(4202, z 979 ⊛ z 4181 ⊹ z 997 ⊛ z 4124 ⊝ z 973 ⊛ z 4183 ⊝ z 978 ⊛ z 4184 ⊝ z 995 ⊛ z 4109 ⊝ z 999
    ⊛ z 4117),
(4203, z 98 ⊛ z 4141 ⊹ z 99 ⊛ z 4147 ⊹ n 2 ⊛ z 4078 ⊛ z 858 ⊹ n 2 ⊛ z 4078 ⊛ z 872 ⊹ n 2 ⊛ z 4078
    ⊛ z 879 ⊹ ig22 ⊛ z 99 ⊛ z 4145 ⊹ ig31 ⊛ z 98 ⊛ z 4135 ⊹ ig11 ⊛ z 98 ⊛ q9p ⊛ z 4131 ⊹ mg ⊛ (z
    205 ⊛ z 4149 ⊝ z 200 ⊛ z 4153 ⊝ z 201 ⊛ z 4156 ⊝ n 2 ⊛ l6 ⊛ z 4078 ⊛ z 400)),
(4204, z 4203 ⊹ z 4080 ⊛ z 666 ⊹ z 4085 ⊛ z 668 ⊹ z 4095 ⊛ z 667 ⊝ z 4088 ⊛ z 665),
(4205, n 2 ⊛ z 4078 ⊛ z 408 ⊝ k9 ⊛ z 98 ⊝ z 406 ⊛ (z 200 ⊛ z 4090 ⊹ z 201 ⊛ z 4089 ⊹ n 2 ⊛ l6 ⊛ z
    107 ⊛ z 4078)),
(4206, z 860 ⊛ z 4138 ⊹ z 866 ⊛ z 4136 ⊹ z 875 ⊛ z 4138 ⊹ ig22 ⊛ z 113 ⊛ z 4136 ⊹ ig31 ⊛ z 109 ⊛ z
    4138 ⊹ ig33 ⊛ z 117 ⊛ z 4138 ⊹ n 2 ⊛ mg ⊛ (l6 ⊛ z 209 ⊛ z 4136 ⊹ z 212 ⊛ (z 4150 ⊹ l5 ⊛ z
    4138) ⊹ z 215 ⊛ (z 4154 ⊝ l5 ⊛ z 4136))),
(4207, ig22 ⊛ z 112 ⊛ z 4136 ⊹ ig31 ⊛ z 110 ⊛ z 4138 ⊹ ig33 ⊛ z 115 ⊛ z 4138 ⊹ z 43 ⊛ z 860 ⊛ z
    4089 ⊹ z 43 ⊛ z 866 ⊛ z 4090 ⊹ z 43 ⊛ z 875 ⊛ z 4089 ⊹ mg ⊛ (z 212 ⊛ z 4092 ⊹ z 215 ⊛ z 4094 ⊹
    l6 ⊛ z 211 ⊛ z 4136 ⊹ l6 ⊛ z 43 ⊛ z 209 ⊛ z 4090 ⊹ z 214 ⊛ (z 4150 ⊹ l5 ⊛ z 4138) ⊹ z 217 ⊛ (z
    4154 ⊝ l5 ⊛ z 4136))),
(4208, z 860 ⊛ z 4081 ⊹ z 866 ⊛ z 4082 ⊹ z 875 ⊛ z 4081 ⊹ ig22 ⊛ z 114 ⊛ z 4136 ⊹ ig31 ⊛ z 111 ⊛ z
    4138 ⊹ ig33 ⊛ z 116 ⊛ z 4138 ⊹ mg ⊛ (l6 ⊛ z 209 ⊛ z 4082 ⊹ l6 ⊛ z 210 ⊛ z 4136 ⊹ z 212 ⊛ (z
    4083 ⊹ l5 ⊛ z 4081) ⊹ z 213 ⊛ (z 4150 ⊹ l5 ⊛ z 4138) ⊹ z 215 ⊛ (z 4084 ⊝ l5 ⊛ z 4082) ⊹ z 216
    ⊛ (z 4154 ⊝ l5 ⊛ z 4136))),
(4209, z 4206 ⊹ z 538 ⊛ z 4167 ⊹ z 544 ⊛ z 4207 ⊹ z 547 ⊛ z 4208 ⊝ z 541 ⊛ z 4169),
(4210, z 4209 ⊹ z 538 ⊛ z 4168 ⊹ z 544 ⊛ z 4164 ⊹ z 547 ⊛ z 4166 ⊝ z 541 ⊛ z 4170),
(4211, z 542 ⊛ z 4169 ⊝ z 539 ⊛ z 4167 ⊝ z 545 ⊛ z 4207),
(4212, z 4211 ⊹ z 538 ⊛ z 4103 ⊹ z 544 ⊛ z 4105 ⊹ z 547 ⊛ z 4125 ⊝ z 541 ⊛ z 4100),
(4213, z 949 ⊛ z 4106 ⊹ z 964 ⊛ z 4210 ⊝ z 950 ⊛ z 4212 ⊝ z 963 ⊛ z 4178),
(4214, z 905 ⊛ z 4124 ⊹ n 2 ⊛ z 979 ⊛ z 4120 ⊝ z 973 ⊛ z 4096 ⊝ z 983 ⊛ z 4109),
(4215, z 949 ⊛ z 4110 ⊹ z 960 ⊛ z 4210 ⊝ z 945 ⊛ z 4212 ⊝ z 963 ⊛ z 4180),
(4216, z 978 ⊛ z 4096 ⊹ z 983 ⊛ z 4117 ⊝ z 979 ⊛ z 4128 ⊝ z 982 ⊛ z 4124),
(4217, z 543 ⊛ z 4169 ⊹ z 548 ⊛ z 4208 ⊝ z 540 ⊛ z 4167 ⊝ z 546 ⊛ z 4207),
(4218, z 4217 ⊹ z 538 ⊛ z 4114 ⊹ z 544 ⊛ z 4116 ⊹ z 547 ⊛ z 4123 ⊝ z 541 ⊛ z 4112),
(4219, n 2 ⊛ z 855 ⊛ z 4078 ⊹ n 2 ⊛ z 871 ⊛ z 4078 ⊹ ig22 ⊛ z 99 ⊛ z 4136 ⊹ ig31 ⊛ z 98 ⊛ z 4138 ⊹
    mg ⊛ (l6 ⊛ z 205 ⊛ z 4136 ⊝ n 2 ⊛ l6 ⊛ z 212 ⊛ z 4078 ⊝ z 200 ⊛ (z 4150 ⊹ l5 ⊛ z 4138) ⊝ z 201
    ⊛ (z 4154 ⊝ l5 ⊛ z 4136))),
(4220, z 4219 ⊹ z 541 ⊛ z 4080 ⊹ z 544 ⊛ z 4095 ⊹ z 547 ⊛ z 4085 ⊝ z 538 ⊛ z 4088),
(4221, z 905 ⊛ z 4218 ⊹ n 2 ⊛ z 977 ⊛ z 4120 ⊝ z 973 ⊛ z 4220 ⊝ z 981 ⊛ z 4109),
(4222, z 977 ⊛ z 4128 ⊹ z 982 ⊛ z 4218 ⊝ z 978 ⊛ z 4220 ⊝ z 981 ⊛ z 4117)]

/-- _mooreriderlean2012.py:9050-9196 -/
def part78 : List (ℕ × E) := [
(4223, z 949 ⊛ z 4126 ⊹ z 965 ⊛ z 4210 ⊝ z 951 ⊛ z 4212 ⊝ z 963 ⊛ z 4182),
(4224, z 905 ⊛ z 4117 ⊹ n 2 ⊛ z 978 ⊛ z 4120 ⊝ z 973 ⊛ z 4128 ⊝ z 982 ⊛ z 4109),
(4225, z 977 ⊛ z 4096 ⊹ z 983 ⊛ z 4218 ⊝ z 979 ⊛ z 4220 ⊝ z 981 ⊛ z 4124),
(4226, z 989 ⊛ z 4214 ⊹ z 990 ⊛ z 4213 ⊹ z 993 ⊛ z 4216 ⊹ z 994 ⊛ z 4215 ⊹ z 995 ⊛ z 4221 ⊹ z 996
    ⊛ z 4183 ⊹ z 999 ⊛ z 4222 ⊹ z 1000 ⊛ z 4184 ⊝ z 991 ⊛ z 4224 ⊝ z 992 ⊛ z 4223 ⊝ z 997 ⊛ z 4225
    ⊝ z 998 ⊛ z 4181),
(4227, (z 4226 ⊛ (z 1005 ⊛ z 985 ⊹ z 1022 ⊛ z 987 ⊝ z 1015 ⊛ z 986 ⊝ z 1026 ⊛ z 988) ⊹ z 1001 ⊛ (z
    4195 ⊛ z 986 ⊹ z 4202 ⊛ z 988 ⊹ z 1005 ⊛ (z 4177 ⊝ z 4171) ⊹ z 1022 ⊛ (z 4191 ⊝ z 4187) ⊝ z
    4130 ⊛ z 985 ⊝ z 4185 ⊛ z 987 ⊝ z 1015 ⊛ (z 4201 ⊝ z 4197) ⊝ z 1026 ⊛ (z 4205 ⊝ z 4204))) ⊘
    pow (z 1001) 2),
(4228, neg (z 4) ⊛ z 5 ⊝ z 3 ⊛ z 6 ⊛ z 547),
(4229, z 3 ⊛ z 5 ⊝ z 4 ⊛ z 6 ⊛ z 547),
(4230, z 3 ⊛ z 31 ⊹ z 3 ⊛ z 4228 ⊹ z 4 ⊛ z 4229 ⊝ z 4 ⊛ z 32),
(4231, z 3 ⊛ z 5 ⊛ z 547 ⊝ z 4 ⊛ z 6),
(4232, z 4230 ⊛ q4p ⊹ z 270 ⊝ z 43 ⊛ z 4231 ⊛ q3p ⊝ z 43 ⊛ z 544 ⊛ z 271),
(4233, z 3 ⊛ z 6 ⊹ z 4 ⊛ z 5 ⊛ z 547),
(4234, z 3 ⊛ z 41 ⊹ z 3 ⊛ z 4231 ⊹ z 4 ⊛ z 4233 ⊝ z 4 ⊛ z 42),
(4235, z 3 ⊛ z 4229 ⊝ z 3 ⊛ z 32 ⊝ z 4 ⊛ z 31 ⊝ z 4 ⊛ z 4228),
(4236, z 4234 ⊛ q4p ⊹ z 4235 ⊛ q5p ⊹ z 43 ⊛ z 4228 ⊛ q3p ⊹ z 279 ⊹ z 547 ⊛ z 278 ⊹ z 43 ⊛ z 544 ⊛
    z 268),
(4237, ic33 ⊛ z 672 ⊹ ic31 ⊛ (z 45 ⊝ z 50 ⊛ z 544)),
(4238, z 671 ⊛ z 758 ⊹ z 4237 ⊛ z 266 ⊝ z 672 ⊛ z 759 ⊝ ic22 ⊛ z 671 ⊛ z 267),
(4239, z 31 ⊛ z 4231 ⊹ z 42 ⊛ z 4229 ⊝ z 32 ⊛ z 4233 ⊝ z 41 ⊛ z 4228),
(4240, n 2 ⊛ z 41 ⊛ z 4233 ⊹ n 2 ⊛ z 42 ⊛ z 4231 ⊝ n 2 ⊛ z 5 ⊛ z 6 ⊛ z 547),
(4241, z 4239 ⊛ q4p ⊹ z 4240 ⊛ q5p ⊹ z 3 ⊛ z 43 ⊛ q3p ⊹ z 274 ⊹ z 544 ⊛ z 276 ⊹ z 547 ⊛ z 275),
(4242, ic31 ⊛ z 672 ⊹ ic11 ⊛ (z 45 ⊝ z 50 ⊛ z 544)),
(4243, z 672 ⊛ z 757 ⊹ z 4242 ⊛ z 267 ⊝ z 4237 ⊛ z 265 ⊝ (z 45 ⊝ z 50 ⊛ z 544) ⊛ z 758),
(4244, z 680 ⊛ z 781 ⊹ id11 ⊛ z 679 ⊛ z 283 ⊝ z 679 ⊛ z 783 ⊝ id11 ⊛ z 680 ⊛ z 281),
(4245, ic22 ⊛ z 671 ⊛ z 265 ⊹ (z 45 ⊝ z 50 ⊛ z 544) ⊛ z 759 ⊝ z 671 ⊛ z 757 ⊝ z 4242 ⊛ z 266),
(4246, z 7 ⊛ z 4230 ⊝ z 8 ⊛ z 4234),
(4247, neg (z 7) ⊛ z 4231 ⊝ z 8 ⊛ z 4228),
(4248, z 4246 ⊛ q4p ⊹ z 43 ⊛ z 4247 ⊛ q3p ⊹ z 284 ⊹ z 43 ⊛ z 544 ⊛ z 285 ⊝ z 8 ⊛ z 4235 ⊛ q5p ⊝ z
    547 ⊛ z 286),
(4249, z 671 ⊛ z 783 ⊹ id11 ⊛ z 680 ⊛ z 282 ⊝ z 680 ⊛ z 782 ⊝ id22 ⊛ z 671 ⊛ z 283),
(4250, z 7 ⊛ z 4234 ⊹ z 8 ⊛ z 4230),
(4251, z 7 ⊛ z 4228 ⊝ z 8 ⊛ z 4231),
(4252, z 4250 ⊛ q4p ⊹ z 7 ⊛ z 4235 ⊛ q5p ⊹ z 43 ⊛ z 4251 ⊛ q3p ⊹ z 288 ⊹ z 547 ⊛ z 290 ⊹ z 43 ⊛ z
    544 ⊛ z 289),
(4253, z 679 ⊛ z 782 ⊹ id22 ⊛ z 671 ⊛ z 281 ⊝ z 671 ⊛ z 781 ⊝ id11 ⊛ z 679 ⊛ z 282),
(4254, neg (z 3) ⊛ z 26 ⊝ z 4 ⊛ z 9 ⊝ z 4 ⊛ z 5 ⊛ z 10 ⊛ z 547),
(4255, z 4 ⊛ z 26 ⊝ z 3 ⊛ z 9 ⊝ z 3 ⊛ z 5 ⊛ z 10 ⊛ z 547),
(4256, z 29 ⊛ z 4228 ⊹ z 32 ⊛ z 4254 ⊝ z 31 ⊛ z 4255 ⊝ z 69 ⊛ z 4229),
(4257, z 3 ⊛ z 25 ⊝ z 4 ⊛ z 6 ⊛ z 10 ⊛ z 547),
(4258, neg (z 4) ⊛ z 25 ⊝ z 3 ⊛ z 6 ⊛ z 10 ⊛ z 547),
(4259, z 31 ⊛ z 4257 ⊹ z 32 ⊛ z 4258 ⊹ z 71 ⊛ z 4229 ⊹ z 72 ⊛ z 4228 ⊹ z 5 ⊛ z 26 ⊛ z 547 ⊹ z 5 ⊛
    z 6 ⊛ z 10 ⊛ z 547),
(4260, z 3 ⊛ z 5 ⊛ z 9 ⊛ z 547 ⊝ z 3 ⊛ z 10 ⊝ z 4 ⊛ z 24),
(4261, z 4 ⊛ z 10 ⊝ z 3 ⊛ z 24 ⊝ z 4 ⊛ z 5 ⊛ z 9 ⊛ z 547),
(4262, z 32 ⊛ z 4260 ⊹ z 66 ⊛ z 4228 ⊹ z 9 ⊛ z 547 ⊛ pow (z 6) 2 ⊝ z 31 ⊛ z 4261 ⊝ z 70 ⊛ z 4229 ⊝
    z 5 ⊛ z 23 ⊛ z 547),
(4263, z 3 ⊛ z 10 ⊹ z 4 ⊛ z 24 ⊝ z 3 ⊛ z 5 ⊛ z 9 ⊛ z 547),
(4264, z 4256 ⊛ q4p ⊹ z 4259 ⊛ q5p ⊹ z 4262 ⊛ q7p ⊹ z 43 ⊛ z 4263 ⊛ q3p ⊹ z 302 ⊹ z 547 ⊛ z 299 ⊹
    z 43 ⊛ z 544 ⊛ z 308),
(4265, z 3 ⊛ z 9 ⊹ z 3 ⊛ z 5 ⊛ z 10 ⊛ z 547 ⊝ z 4 ⊛ z 26),
(4266, z 3 ⊛ z 24 ⊹ z 4 ⊛ z 5 ⊛ z 9 ⊛ z 547 ⊝ z 4 ⊛ z 10),
(4267, z 27 ⊛ z 4265 ⊹ z 29 ⊛ z 4260 ⊹ z 30 ⊛ z 4266 ⊹ z 66 ⊛ z 4254),
(4268, z 3 ⊛ z 23 ⊝ z 4 ⊛ z 6 ⊛ z 9 ⊛ z 547),
(4269, neg (z 4) ⊛ z 23 ⊝ z 3 ⊛ z 6 ⊛ z 9 ⊛ z 547),
(4270, z 29 ⊛ z 4268 ⊹ z 67 ⊛ z 4254 ⊹ z 5 ⊛ z 9 ⊛ z 25 ⊛ z 547 ⊝ z 30 ⊛ z 4269 ⊝ z 68 ⊛ z 4265 ⊝
    z 6 ⊛ z 10 ⊛ z 24 ⊛ z 547),
(4271, n 2 ⊛ z 29 ⊛ z 4254 ⊹ n 2 ⊛ z 30 ⊛ z 4265 ⊝ n 2 ⊛ z 6 ⊛ z 10 ⊛ z 25 ⊛ z 547),
(4272, z 4267 ⊛ q4p ⊹ z 4270 ⊛ q5p ⊹ z 4271 ⊛ q7p ⊹ z 43 ⊛ z 4228 ⊛ q3p ⊹ z 319 ⊹ z 547 ⊛ z 317 ⊹
    z 43 ⊛ z 544 ⊛ z 268),
(4273, ie31 ⊛ z 686 ⊹ ie33 ⊛ z 688),
(4274, z 687 ⊛ z 801 ⊹ z 4273 ⊛ z 293 ⊝ z 688 ⊛ z 802 ⊝ ie22 ⊛ z 687 ⊛ z 294),
(4275, neg (z 27) ⊛ z 4228 ⊝ z 28 ⊛ z 4229 ⊝ z 31 ⊛ z 4263 ⊝ z 32 ⊛ z 4266),
(4276, z 27 ⊛ z 4233 ⊹ z 41 ⊛ z 4266 ⊝ z 28 ⊛ z 4231 ⊝ z 42 ⊛ z 4263 ⊝ z 6 ⊛ z 23 ⊛ z 547 ⊝ z 5 ⊛
    z 6 ⊛ z 9 ⊛ z 547),
(4277, z 4275 ⊛ q4p ⊹ z 4276 ⊛ q5p ⊹ z 43 ⊛ z 4265 ⊛ q3p ⊹ z 312 ⊹ z 547 ⊛ z 311 ⊹ z 43 ⊛ z 544 ⊛
    z 313),
(4278, ie11 ⊛ z 686 ⊹ ie31 ⊛ z 688),
(4279, z 688 ⊛ z 800 ⊹ z 4278 ⊛ z 294 ⊝ z 686 ⊛ z 801 ⊝ z 4273 ⊛ z 292),
(4280, z 97 ⊹ z 94 ⊛ z 544 ⊹ z 95 ⊛ z 547),
(4281, z 92 ⊹ z 90 ⊛ z 544 ⊹ z 91 ⊛ z 547),
(4282, z 4280 ⊛ z 830 ⊹ if11 ⊛ z 4281 ⊛ z 323 ⊝ z 4281 ⊛ z 832 ⊝ if11 ⊛ z 4280 ⊛ z 321),
(4283, z 686 ⊛ z 802 ⊹ ie22 ⊛ z 687 ⊛ z 292 ⊝ z 687 ⊛ z 800 ⊝ z 4278 ⊛ z 293),
(4284, z 11 ⊛ z 4256 ⊝ z 12 ⊛ z 4267 ⊝ z 11 ⊛ z 80 ⊛ z 549 ⊝ z 12 ⊛ z 74 ⊛ z 549),
(4285, z 11 ⊛ z 4259 ⊝ z 12 ⊛ z 4270 ⊝ z 11 ⊛ z 78 ⊛ z 549 ⊝ z 12 ⊛ z 73 ⊛ z 549),
(4286, z 11 ⊛ z 4262 ⊝ z 12 ⊛ z 4271 ⊝ z 11 ⊛ z 79 ⊛ z 549 ⊝ z 12 ⊛ z 75 ⊛ z 549),
(4287, z 11 ⊛ z 4263 ⊝ z 12 ⊛ z 4228 ⊝ z 11 ⊛ z 32 ⊛ z 549 ⊝ z 12 ⊛ z 28 ⊛ z 549),
(4288, z 4284 ⊛ q4p ⊹ z 4285 ⊛ q5p ⊹ z 4286 ⊛ q7p ⊹ z 43 ⊛ z 4287 ⊛ q3p ⊹ z 326 ⊹ z 547 ⊛ z 325 ⊹
    z 43 ⊛ z 544 ⊛ z 324),
(4289, z 77 ⊹ z 76 ⊛ z 547 ⊹ z 82 ⊛ z 544 ⊹ z 83 ⊛ z 549),
(4290, z 4289 ⊛ z 832 ⊹ if11 ⊛ z 4280 ⊛ z 322 ⊝ z 4280 ⊛ z 831 ⊝ if22 ⊛ z 4289 ⊛ z 323),
(4291, z 11 ⊛ z 4267 ⊹ z 12 ⊛ z 4256 ⊹ z 11 ⊛ z 74 ⊛ z 549 ⊝ z 12 ⊛ z 80 ⊛ z 549),
(4292, z 11 ⊛ z 4270 ⊹ z 12 ⊛ z 4259 ⊹ z 11 ⊛ z 73 ⊛ z 549 ⊝ z 12 ⊛ z 78 ⊛ z 549),
(4293, z 11 ⊛ z 4271 ⊹ z 12 ⊛ z 4262 ⊹ z 11 ⊛ z 75 ⊛ z 549 ⊝ z 12 ⊛ z 79 ⊛ z 549),
(4294, z 11 ⊛ z 4228 ⊹ z 12 ⊛ z 4263 ⊹ z 11 ⊛ z 28 ⊛ z 549 ⊝ z 12 ⊛ z 32 ⊛ z 549),
(4295, z 4291 ⊛ q4p ⊹ z 4292 ⊛ q5p ⊹ z 4293 ⊛ q7p ⊹ z 43 ⊛ z 4294 ⊛ q3p ⊹ z 332 ⊹ z 547 ⊛ z 330 ⊹
    z 43 ⊛ z 544 ⊛ z 329),
(4296, z 4281 ⊛ z 831 ⊹ if22 ⊛ z 4289 ⊛ z 321 ⊝ z 4289 ⊛ z 830 ⊝ if11 ⊛ z 4281 ⊛ z 322),
(4297, z 13 ⊛ z 4230 ⊹ z 14 ⊛ z 4234),
(4298, z 14 ⊛ z 4228 ⊝ z 13 ⊛ z 4231),
(4299, z 4297 ⊛ q4p ⊹ z 14 ⊛ z 4235 ⊛ q5p ⊹ z 43 ⊛ z 4298 ⊛ q3p ⊹ z 340 ⊹ z 14 ⊛ z 547 ⊛ z 278 ⊹ z
    43 ⊛ z 544 ⊛ z 341),
(4300, z 20 ⊛ z 4234 ⊝ z 15 ⊛ z 4239 ⊝ z 18 ⊛ z 4230),
(4301, z 20 ⊛ z 4235 ⊝ z 15 ⊛ z 4240),
(4302, z 18 ⊛ z 4231 ⊹ z 20 ⊛ z 4228 ⊝ z 3 ⊛ z 15),
(4303, z 4300 ⊛ q4p ⊹ z 4301 ⊛ q5p ⊹ z 43 ⊛ z 4302 ⊛ q3p ⊹ z 350 ⊹ z 547 ⊛ z 349 ⊹ z 43 ⊛ z 544 ⊛
    z 348),
(4304, ig31 ⊛ z 694 ⊹ ig33 ⊛ z 696),
(4305, z 695 ⊛ z 852 ⊹ z 4304 ⊛ z 335 ⊝ z 696 ⊛ z 853 ⊝ ig22 ⊛ z 695 ⊛ z 336),
(4306, z 17 ⊛ z 4239 ⊹ z 19 ⊛ z 4234 ⊝ z 16 ⊛ z 4230),
(4307, z 17 ⊛ z 4240 ⊹ z 19 ⊛ z 4235),
(4308, z 3 ⊛ z 17 ⊹ z 16 ⊛ z 4231 ⊹ z 19 ⊛ z 4228),
(4309, z 4306 ⊛ q4p ⊹ z 4307 ⊛ q5p ⊹ z 43 ⊛ z 4308 ⊛ q3p ⊹ z 345 ⊹ z 547 ⊛ z 346 ⊹ z 43 ⊛ z 544 ⊛
    z 344),
(4310, ig11 ⊛ z 694 ⊹ ig31 ⊛ z 696),
(4311, z 696 ⊛ z 851 ⊹ z 4310 ⊛ z 336 ⊝ z 694 ⊛ z 852 ⊝ z 4304 ⊛ z 334),
(4312, z 694 ⊛ z 853 ⊹ ig22 ⊛ z 695 ⊛ z 334 ⊝ z 695 ⊛ z 851 ⊝ z 4310 ⊛ z 335),
(4313, rr ⊛ z 3 ⊛ z 43 ⊛ q3p ⊹ z 544 ⊛ z 354),
(4314, neg (z 4313) ⊝ z 3 ⊛ z 119 ⊛ z 356 ⊝ z 3 ⊛ z 43 ⊛ z 544 ⊛ z 353),
(4315, z 44 ⊛ z 353 ⊹ z 119 ⊛ z 357),
(4316, z 544 ⊛ (z 43 ⊛ z 352 ⊹ z 118 ⊛ z 356)),
(4317, z 5 ⊛ z 4314 ⊝ z 6 ⊛ z 4315 ⊝ z 41 ⊛ z 4316),
(4318, z 671 ⊛ (z 173 ⊛ q4p ⊹ z 174 ⊛ q5p ⊹ z 175 ⊛ q3p) ⊹ z 4317 ⊹ z 22 ⊛ z 4241 ⊹ (z 173 ⊹ z 174
    ⊛ z 547 ⊹ z 175 ⊛ z 544) ⊛ z 266 ⊝ z 672 ⊛ (z 170 ⊛ q4p ⊹ z 171 ⊛ q3p ⊝ z 172 ⊛ q5p) ⊝ (z 170
    ⊹ z 171 ⊛ z 544 ⊝ z 172 ⊛ z 547) ⊛ z 267),
(4319, z 5 ⊛ z 4315 ⊹ z 6 ⊛ z 4314 ⊹ z 31 ⊛ z 4316),
(4320, (z 45 ⊝ z 50 ⊛ z 544) ⊛ (z 170 ⊛ q4p ⊹ z 171 ⊛ q3p ⊝ z 172 ⊛ q5p) ⊹ z 4319 ⊹ z 21 ⊛ z 4241
    ⊹ (z 170 ⊹ z 171 ⊛ z 544 ⊝ z 172 ⊛ z 547) ⊛ z 265 ⊝ z 671 ⊛ (z 176 ⊛ q4p ⊹ z 177 ⊛ q5p ⊹ z 178
    ⊛ q3p) ⊝ (z 176 ⊹ z 177 ⊛ z 547 ⊹ z 178 ⊛ z 544) ⊛ z 266),
(4321, z 13 ⊛ z 4318 ⊹ z 14 ⊛ z 4320)]

/-- _mooreriderlean2012.py:9197-9298 -/
def part79 : List (ℕ × E) := [
(4322, z 4321 ⊹ l6 ⊛ z 4309 ⊝ z 695 ⊛ (z 201 ⊛ q9p ⊹ z 202 ⊛ q3p ⊹ z 203 ⊛ q4p ⊹ z 204 ⊛ q5p) ⊝ z
    696 ⊛ (z 197 ⊛ q3p ⊹ z 198 ⊛ q5p ⊹ z 199 ⊛ q4p ⊝ z 200 ⊛ q9p) ⊝ (z 199 ⊹ z 197 ⊛ z 544 ⊹ z 198
    ⊛ z 547) ⊛ z 336 ⊝ (z 203 ⊹ z 202 ⊛ z 544 ⊹ z 204 ⊛ z 547) ⊛ z 335),
(4323, neg (z 21) ⊛ z 4236 ⊝ z 22 ⊛ z 4232),
(4324, z 672 ⊛ (z 176 ⊛ q4p ⊹ z 177 ⊛ q5p ⊹ z 178 ⊛ q3p) ⊹ z 4323 ⊹ (z 176 ⊹ z 177 ⊛ z 547 ⊹ z 178
    ⊛ z 544) ⊛ z 267 ⊝ (z 45 ⊝ z 50 ⊛ z 544) ⊛ (z 173 ⊛ q4p ⊹ z 174 ⊛ q5p ⊹ z 175 ⊛ q3p) ⊝ z 3 ⊛ z
    4316 ⊝ (z 173 ⊹ z 174 ⊛ z 547 ⊹ z 175 ⊛ z 544) ⊛ z 265),
(4325, z 17 ⊛ z 4324 ⊹ z 19 ⊛ z 4320 ⊝ z 16 ⊛ z 4318),
(4326, l5 ⊛ z 4303 ⊝ l6 ⊛ z 4299),
(4327, z 694 ⊛ (z 201 ⊛ q9p ⊹ z 202 ⊛ q3p ⊹ z 203 ⊛ q4p ⊹ z 204 ⊛ q5p) ⊹ z 696 ⊛ (z 205 ⊛ q9p ⊹ z
    206 ⊛ q3p ⊹ z 207 ⊛ q4p ⊹ z 208 ⊛ q5p) ⊹ z 4325 ⊹ z 4326 ⊹ (z 203 ⊹ z 202 ⊛ z 544 ⊹ z 204 ⊛ z
    547) ⊛ z 334 ⊹ (z 207 ⊹ z 206 ⊛ z 544 ⊹ z 208 ⊛ z 547) ⊛ z 336),
(4328, z 20 ⊛ z 4320 ⊝ z 15 ⊛ z 4324 ⊝ z 18 ⊛ z 4318),
(4329, z 694 ⊛ (z 197 ⊛ q3p ⊹ z 198 ⊛ q5p ⊹ z 199 ⊛ q4p ⊝ z 200 ⊛ q9p) ⊹ z 4328 ⊹ (z 199 ⊹ z 197 ⊛
    z 544 ⊹ z 198 ⊛ z 547) ⊛ z 334 ⊝ z 695 ⊛ (z 205 ⊛ q9p ⊹ z 206 ⊛ q3p ⊹ z 207 ⊛ q4p ⊹ z 208 ⊛
    q5p) ⊝ l5 ⊛ z 4309 ⊝ (z 207 ⊹ z 206 ⊛ z 544 ⊹ z 208 ⊛ z 547) ⊛ z 335),
(4330, (z 45 ⊝ z 50 ⊛ z 544) ⊛ (z 128 ⊛ q5p ⊹ z 129 ⊛ q4p ⊹ z 130 ⊛ q3p) ⊹ z 4319 ⊹ (z 129 ⊹ z 128
    ⊛ z 547 ⊹ z 130 ⊛ z 544) ⊛ z 265 ⊝ z 671 ⊛ (z 134 ⊛ q4p ⊹ z 135 ⊛ q5p ⊹ z 136 ⊛ q3p) ⊝ l1 ⊛ z
    4241 ⊝ (z 134 ⊹ z 135 ⊛ z 547 ⊹ z 136 ⊛ z 544) ⊛ z 266),
(4331, z 4317 ⊹ l2 ⊛ z 4241 ⊝ z 671 ⊛ (z 131 ⊛ q4p ⊹ z 132 ⊛ q5p ⊹ z 133 ⊛ q3p) ⊝ z 672 ⊛ (z 128 ⊛
    q5p ⊹ z 129 ⊛ q4p ⊹ z 130 ⊛ q3p) ⊝ (z 129 ⊹ z 128 ⊛ z 547 ⊹ z 130 ⊛ z 544) ⊛ z 267 ⊝ (z 131 ⊹
    z 132 ⊛ z 547 ⊹ z 133 ⊛ z 544) ⊛ z 266),
(4332, l1 ⊛ z 4236 ⊝ l2 ⊛ z 4232),
(4333, z 672 ⊛ (z 134 ⊛ q4p ⊹ z 135 ⊛ q5p ⊹ z 136 ⊛ q3p) ⊹ (z 45 ⊝ z 50 ⊛ z 544) ⊛ (z 131 ⊛ q4p ⊹
    z 132 ⊛ q5p ⊹ z 133 ⊛ q3p) ⊹ z 4332 ⊹ (z 131 ⊹ z 132 ⊛ z 547 ⊹ z 133 ⊛ z 544) ⊛ z 265 ⊹ (z 134
    ⊹ z 135 ⊛ z 547 ⊹ z 136 ⊛ z 544) ⊛ z 267 ⊝ z 3 ⊛ z 4316),
(4334, (z 45 ⊝ z 50 ⊛ z 544) ⊛ (z 143 ⊛ q5p ⊹ z 144 ⊛ q4p ⊹ z 145 ⊛ q3p) ⊹ z 4319 ⊹ (z 144 ⊹ z 143
    ⊛ z 547 ⊹ z 145 ⊛ z 544) ⊛ z 265 ⊝ d1 ⊛ z 4241),
(4335, z 686 ⊛ (z 159 ⊛ q3p ⊹ z 160 ⊛ q5p ⊹ z 161 ⊛ q7p ⊹ z 162 ⊛ q4p) ⊹ (z 162 ⊹ z 159 ⊛ z 544 ⊹
    z 160 ⊛ z 547) ⊛ z 292 ⊝ z 687 ⊛ (z 164 ⊛ q5p ⊹ z 165 ⊛ q4p ⊹ z 166 ⊛ q3p) ⊝ z 158 ⊛ z 4277 ⊝
    (z 165 ⊹ z 164 ⊛ z 547 ⊹ z 166 ⊛ z 544) ⊛ z 293),
(4336, z 4317 ⊝ z 671 ⊛ (z 140 ⊛ q4p ⊹ z 141 ⊛ q5p ⊹ z 142 ⊛ q3p) ⊝ z 672 ⊛ (z 143 ⊛ q5p ⊹ z 144 ⊛
    q4p ⊹ z 145 ⊛ q3p) ⊝ (z 140 ⊹ z 141 ⊛ z 547 ⊹ z 142 ⊛ z 544) ⊛ z 266 ⊝ (z 144 ⊹ z 143 ⊛ z 547
    ⊹ z 145 ⊛ z 544) ⊛ z 267),
(4337, (z 45 ⊝ z 50 ⊛ z 544) ⊛ (z 140 ⊛ q4p ⊹ z 141 ⊛ q5p ⊹ z 142 ⊛ q3p) ⊹ d1 ⊛ z 4236 ⊹ (z 140 ⊹
    z 141 ⊛ z 547 ⊹ z 142 ⊛ z 544) ⊛ z 265 ⊝ z 3 ⊛ z 4316),
(4338, z 158 ⊛ z 4272 ⊝ d2 ⊛ z 4264 ⊝ l4 ⊛ z 4264),
(4339, z 686 ⊛ (z 167 ⊛ q5p ⊹ z 168 ⊛ q4p ⊹ z 169 ⊛ q3p) ⊹ z 688 ⊛ (z 164 ⊛ q5p ⊹ z 165 ⊛ q4p ⊹ z
    166 ⊛ q3p) ⊹ z 4338 ⊹ (z 165 ⊹ z 164 ⊛ z 547 ⊹ z 166 ⊛ z 544) ⊛ z 294 ⊹ (z 168 ⊹ z 167 ⊛ z 547
    ⊹ z 169 ⊛ z 544) ⊛ z 292),
(4340, z 163 ⊛ z 4277 ⊝ z 687 ⊛ (z 167 ⊛ q5p ⊹ z 168 ⊛ q4p ⊹ z 169 ⊛ q3p) ⊝ z 688 ⊛ (z 159 ⊛ q3p ⊹
    z 160 ⊛ q5p ⊹ z 161 ⊛ q7p ⊹ z 162 ⊛ q4p) ⊝ (z 162 ⊹ z 159 ⊛ z 544 ⊹ z 160 ⊛ z 547) ⊛ z 294 ⊝
    (z 168 ⊹ z 167 ⊛ z 547 ⊹ z 169 ⊛ z 544) ⊛ z 293),
(4341, z 686 ⊛ (z 148 ⊛ q3p ⊹ z 149 ⊛ q5p ⊹ z 150 ⊛ q7p ⊹ z 151 ⊛ q4p) ⊹ (z 151 ⊹ z 148 ⊛ z 544 ⊹
    z 149 ⊛ z 547) ⊛ z 292 ⊝ z 687 ⊛ (z 152 ⊛ q5p ⊹ z 153 ⊛ q4p ⊹ z 154 ⊛ q3p) ⊝ d3 ⊛ z 4277 ⊝ (z
    153 ⊹ z 152 ⊛ z 547 ⊹ z 154 ⊛ z 544) ⊛ z 293),
(4342, d3 ⊛ z 4272 ⊝ d2 ⊛ z 4264),
(4343, z 686 ⊛ (z 155 ⊛ q5p ⊹ z 156 ⊛ q4p ⊹ z 157 ⊛ q3p) ⊹ z 688 ⊛ (z 152 ⊛ q5p ⊹ z 153 ⊛ q4p ⊹ z
    154 ⊛ q3p) ⊹ z 4342 ⊹ (z 153 ⊹ z 152 ⊛ z 547 ⊹ z 154 ⊛ z 544) ⊛ z 294 ⊹ (z 156 ⊹ z 155 ⊛ z 547
    ⊹ z 157 ⊛ z 544) ⊛ z 292),
(4344, d2 ⊛ z 4277 ⊝ z 687 ⊛ (z 155 ⊛ q5p ⊹ z 156 ⊛ q4p ⊹ z 157 ⊛ q3p) ⊝ z 688 ⊛ (z 148 ⊛ q3p ⊹ z
    149 ⊛ q5p ⊹ z 150 ⊛ q7p ⊹ z 151 ⊛ q4p) ⊝ (z 151 ⊹ z 148 ⊛ z 544 ⊹ z 149 ⊛ z 547) ⊛ z 294 ⊝ (z
    156 ⊹ z 155 ⊛ z 547 ⊹ z 157 ⊛ z 544) ⊛ z 293),
(4345, z 45 ⊛ z 4238 ⊹ z 46 ⊛ z 4243 ⊹ z 46 ⊛ z 4244 ⊹ z 49 ⊛ z 4245 ⊹ z 60 ⊛ z 4249 ⊹ z 63 ⊛ z
    4253 ⊹ z 74 ⊛ z 4274 ⊹ z 77 ⊛ z 4279 ⊹ z 77 ⊛ z 4282 ⊹ z 80 ⊛ z 4283 ⊹ z 92 ⊛ z 4290 ⊹ z 97 ⊛
    z 4296 ⊹ z 109 ⊛ z 4305 ⊹ z 113 ⊛ z 4311 ⊹ z 117 ⊛ z 4312 ⊹ ic11 ⊛ z 45 ⊛ z 4232 ⊹ ic22 ⊛ z 46
    ⊛ z 4241 ⊹ ic31 ⊛ z 45 ⊛ z 4236 ⊹ ic31 ⊛ z 49 ⊛ z 4232 ⊹ ic33 ⊛ z 49 ⊛ z 4236 ⊹ id11 ⊛ z 60 ⊛
    z 4248 ⊹ id11 ⊛ z 63 ⊛ z 4252 ⊹ id22 ⊛ z 46 ⊛ z 4241 ⊹ ie11 ⊛ z 74 ⊛ z 4264 ⊹ ie22 ⊛ z 77 ⊛ z
    4277 ⊹ ie31 ⊛ z 74 ⊛ z 4272 ⊹ ie31 ⊛ z 80 ⊛ z 4264 ⊹ ie33 ⊛ z 80 ⊛ z 4272 ⊹ if11 ⊛ z 92 ⊛ z
    4288 ⊹ if11 ⊛ z 97 ⊛ z 4295 ⊹ if22 ⊛ z 77 ⊛ z 4277 ⊹ ig11 ⊛ z 109 ⊛ z 4299 ⊹ ig22 ⊛ z 113 ⊛ z
    4309 ⊹ ig31 ⊛ z 109 ⊛ z 4303 ⊹ ig31 ⊛ z 117 ⊛ z 4299 ⊹ ig33 ⊛ z 117 ⊛ z 4303 ⊹ mg ⊛ (z 209 ⊛ z
    4322 ⊹ z 212 ⊛ z 4327 ⊹ z 215 ⊛ z 4329) ⊝ md ⊛ z 3 ⊛ z 119 ⊛ z 4316 ⊝ mc ⊛ (z 131 ⊛ z 4330 ⊝ z
    134 ⊛ z 4331 ⊝ z 139 ⊛ z 4333) ⊝ me ⊛ (z 140 ⊛ z 4334 ⊹ z 140 ⊛ z 4335 ⊹ z 168 ⊛ z 4334 ⊹ z
    168 ⊛ z 4335 ⊹ z 10 ⊛ z 162 ⊛ z 4336 ⊝ z 147 ⊛ z 4337 ⊝ z 162 ⊛ z 4339 ⊝ z 165 ⊛ z 4340 ⊝ z 9
    ⊛ z 147 ⊛ z 4339 ⊝ z 9 ⊛ z 162 ⊛ z 4337 ⊝ z 9 ⊛ z 165 ⊛ z 4336 ⊝ z 10 ⊛ z 147 ⊛ z 4340 ⊝ z 10
    ⊛ z 165 ⊛ z 4337) ⊝ mf ⊛ (z 140 ⊛ z 4334 ⊹ z 140 ⊛ z 4341 ⊹ z 156 ⊛ z 4334 ⊹ z 156 ⊛ z 4341 ⊹
    z 10 ⊛ z 151 ⊛ z 4336 ⊝ z 147 ⊛ z 4337 ⊝ z 151 ⊛ z 4343 ⊝ z 153 ⊛ z 4344 ⊝ z 9 ⊛ z 147 ⊛ z
    4343 ⊝ z 9 ⊛ z 151 ⊛ z 4337 ⊝ z 9 ⊛ z 153 ⊛ z 4336 ⊝ z 10 ⊛ z 147 ⊛ z 4344 ⊝ z 10 ⊛ z 153 ⊛ z
    4337)),
(4346, md ⊛ (z 1 ⊛ z 4314 ⊹ z 2 ⊛ z 4316 ⊹ z 218 ⊛ z 4315) ⊹ mg ⊛ (z 182 ⊛ z 4322 ⊹ z 187 ⊛ z 4327
    ⊹ z 192 ⊛ z 4329) ⊹ me ⊛ (z 120 ⊛ z 4336 ⊹ z 122 ⊛ z 4334 ⊹ z 122 ⊛ z 4335 ⊹ z 9 ⊛ z 120 ⊛ z
    4340 ⊝ z 121 ⊛ z 4337 ⊝ z 9 ⊛ z 121 ⊛ z 4339 ⊝ z 10 ⊛ z 120 ⊛ z 4339 ⊝ z 10 ⊛ z 121 ⊛ z 4340)
    ⊹ mf ⊛ (z 120 ⊛ z 4336 ⊹ z 122 ⊛ z 4334 ⊹ z 122 ⊛ z 4341 ⊹ z 9 ⊛ z 120 ⊛ z 4344 ⊝ z 121 ⊛ z
    4337 ⊝ z 9 ⊛ z 121 ⊛ z 4343 ⊝ z 10 ⊛ z 120 ⊛ z 4343 ⊝ z 10 ⊛ z 121 ⊛ z 4344) ⊝ mc ⊛ (z 121 ⊛ z
    4333 ⊝ z 120 ⊛ z 4331 ⊝ z 122 ⊛ z 4330)),
(4347, z 51 ⊛ z 4243 ⊹ z 51 ⊛ z 4244 ⊹ z 52 ⊛ z 4245 ⊹ z 52 ⊛ z 4283 ⊹ z 61 ⊛ z 4249 ⊹ z 64 ⊛ z
    4253 ⊹ z 81 ⊛ z 4274 ⊹ z 82 ⊛ z 4279 ⊹ z 82 ⊛ z 4282 ⊹ z 90 ⊛ z 4290 ⊹ z 94 ⊛ z 4296 ⊹ z 110 ⊛
    z 4305 ⊹ z 112 ⊛ z 4311 ⊹ z 115 ⊛ z 4312 ⊹ ic22 ⊛ z 51 ⊛ z 4241 ⊹ ic31 ⊛ z 52 ⊛ z 4232 ⊹ ic33
    ⊛ z 52 ⊛ z 4236 ⊹ id11 ⊛ z 61 ⊛ z 4248 ⊹ id11 ⊛ z 64 ⊛ z 4252 ⊹ id22 ⊛ z 51 ⊛ z 4241 ⊹ ie11 ⊛
    z 81 ⊛ z 4264 ⊹ ie22 ⊛ z 82 ⊛ z 4277 ⊹ ie31 ⊛ z 52 ⊛ z 4264 ⊹ ie31 ⊛ z 81 ⊛ z 4272 ⊹ ie33 ⊛ z
    52 ⊛ z 4272 ⊹ if11 ⊛ z 90 ⊛ z 4288 ⊹ if11 ⊛ z 94 ⊛ z 4295 ⊹ if22 ⊛ z 82 ⊛ z 4277 ⊹ ig11 ⊛ z
    110 ⊛ z 4299 ⊹ ig22 ⊛ z 112 ⊛ z 4309 ⊹ ig31 ⊛ z 110 ⊛ z 4303 ⊹ ig31 ⊛ z 115 ⊛ z 4299 ⊹ ig33 ⊛
    z 115 ⊛ z 4303 ⊹ mc ⊛ (z 130 ⊛ z 4333 ⊹ z 137 ⊛ z 4331 ⊹ z 138 ⊛ z 4330) ⊹ mg ⊛ (z 211 ⊛ z
    4322 ⊹ z 214 ⊛ z 4327 ⊹ z 217 ⊛ z 4329) ⊝ z 50 ⊛ z 4238 ⊝ ic11 ⊛ z 50 ⊛ z 4232 ⊝ ic31 ⊛ z 50 ⊛
    z 4236 ⊝ md ⊛ z 118 ⊛ z 4314 ⊝ me ⊛ (z 126 ⊛ z 4336 ⊹ z 169 ⊛ z 4334 ⊹ z 169 ⊛ z 4335 ⊹ z 9 ⊛
    z 126 ⊛ z 4340 ⊹ z 10 ⊛ z 159 ⊛ z 4336 ⊝ z 145 ⊛ z 4337 ⊝ z 146 ⊛ z 4334 ⊝ z 146 ⊛ z 4335 ⊝ z
    159 ⊛ z 4339 ⊝ z 166 ⊛ z 4340 ⊝ z 9 ⊛ z 145 ⊛ z 4339 ⊝ z 9 ⊛ z 159 ⊛ z 4337 ⊝ z 9 ⊛ z 166 ⊛ z
    4336 ⊝ z 10 ⊛ z 126 ⊛ z 4339 ⊝ z 10 ⊛ z 145 ⊛ z 4340 ⊝ z 10 ⊛ z 166 ⊛ z 4337) ⊝ mf ⊛ (z 126 ⊛
    z 4336 ⊹ z 157 ⊛ z 4334 ⊹ z 157 ⊛ z 4341 ⊹ z 9 ⊛ z 126 ⊛ z 4344 ⊹ z 10 ⊛ z 148 ⊛ z 4336 ⊝ z
    145 ⊛ z 4337 ⊝ z 146 ⊛ z 4334 ⊝ z 146 ⊛ z 4341 ⊝ z 148 ⊛ z 4343 ⊝ z 154 ⊛ z 4344 ⊝ z 9 ⊛ z 145
    ⊛ z 4343 ⊝ z 9 ⊛ z 148 ⊛ z 4337 ⊝ z 9 ⊛ z 154 ⊛ z 4336 ⊝ z 10 ⊛ z 126 ⊛ z 4343 ⊝ z 10 ⊛ z 145
    ⊛ z 4344 ⊝ z 10 ⊛ z 154 ⊛ z 4337))]

/-- _mooreriderlean2012.py:9299-9422 -/
def part80 : List (ℕ × E) := [
(4348, z 47 ⊛ z 4243 ⊹ z 47 ⊛ z 4244 ⊹ z 48 ⊛ z 4245 ⊹ z 65 ⊛ z 4253 ⊹ z 73 ⊛ z 4274 ⊹ z 76 ⊛ z
    4279 ⊹ z 76 ⊛ z 4282 ⊹ z 78 ⊛ z 4283 ⊹ z 91 ⊛ z 4290 ⊹ z 95 ⊛ z 4296 ⊹ z 111 ⊛ z 4305 ⊹ z 114
    ⊛ z 4311 ⊹ z 116 ⊛ z 4312 ⊹ ic22 ⊛ z 47 ⊛ z 4241 ⊹ ic31 ⊛ z 48 ⊛ z 4232 ⊹ ic33 ⊛ z 48 ⊛ z 4236
    ⊹ id11 ⊛ z 65 ⊛ z 4252 ⊹ id22 ⊛ z 47 ⊛ z 4241 ⊹ ie11 ⊛ z 73 ⊛ z 4264 ⊹ ie22 ⊛ z 76 ⊛ z 4277 ⊹
    ie31 ⊛ z 73 ⊛ z 4272 ⊹ ie31 ⊛ z 78 ⊛ z 4264 ⊹ ie33 ⊛ z 78 ⊛ z 4272 ⊹ if11 ⊛ z 91 ⊛ z 4288 ⊹
    if11 ⊛ z 95 ⊛ z 4295 ⊹ if22 ⊛ z 76 ⊛ z 4277 ⊹ ig11 ⊛ z 111 ⊛ z 4299 ⊹ ig22 ⊛ z 114 ⊛ z 4309 ⊹
    ig31 ⊛ z 111 ⊛ z 4303 ⊹ ig31 ⊛ z 116 ⊛ z 4299 ⊹ ig33 ⊛ z 116 ⊛ z 4303 ⊹ mg ⊛ (z 210 ⊛ z 4322 ⊹
    z 213 ⊛ z 4327 ⊹ z 216 ⊛ z 4329) ⊝ z 62 ⊛ z 4249 ⊝ id11 ⊛ z 62 ⊛ z 4248 ⊝ mc ⊛ (z 132 ⊛ z 4330
    ⊝ z 128 ⊛ z 4333 ⊝ z 135 ⊛ z 4331) ⊝ me ⊛ (z 141 ⊛ z 4334 ⊹ z 141 ⊛ z 4335 ⊹ z 167 ⊛ z 4334 ⊹
    z 167 ⊛ z 4335 ⊹ z 10 ⊛ z 160 ⊛ z 4336 ⊝ z 143 ⊛ z 4337 ⊝ z 160 ⊛ z 4339 ⊝ z 164 ⊛ z 4340 ⊝ z
    9 ⊛ z 143 ⊛ z 4339 ⊝ z 9 ⊛ z 160 ⊛ z 4337 ⊝ z 9 ⊛ z 164 ⊛ z 4336 ⊝ z 10 ⊛ z 143 ⊛ z 4340 ⊝ z
    10 ⊛ z 164 ⊛ z 4337) ⊝ mf ⊛ (z 141 ⊛ z 4334 ⊹ z 141 ⊛ z 4341 ⊹ z 155 ⊛ z 4334 ⊹ z 155 ⊛ z 4341
    ⊹ z 10 ⊛ z 149 ⊛ z 4336 ⊝ z 143 ⊛ z 4337 ⊝ z 149 ⊛ z 4343 ⊝ z 152 ⊛ z 4344 ⊝ z 9 ⊛ z 143 ⊛ z
    4343 ⊝ z 9 ⊛ z 149 ⊛ z 4337 ⊝ z 9 ⊛ z 152 ⊛ z 4336 ⊝ z 10 ⊛ z 143 ⊛ z 4344 ⊝ z 10 ⊛ z 152 ⊛ z
    4337)),
(4349, z 83 ⊛ (z 4282 ⊹ if22 ⊛ z 4277)),
(4350, mc ⊛ (z 123 ⊛ z 4331 ⊹ z 124 ⊛ z 4333 ⊹ z 125 ⊛ z 4330) ⊹ mg ⊛ (z 183 ⊛ z 4322 ⊹ z 188 ⊛ z
    4327 ⊹ z 193 ⊛ z 4329) ⊹ md ⊛ (z 2 ⊛ z 4314 ⊝ z 1 ⊛ z 4316 ⊝ z 219 ⊛ z 4315) ⊝ me ⊛ (z 10 ⊛ z
    123 ⊛ z 4339 ⊝ z 123 ⊛ z 4336 ⊝ z 124 ⊛ z 4337 ⊝ z 125 ⊛ z 4334 ⊝ z 125 ⊛ z 4335 ⊝ z 9 ⊛ z 123
    ⊛ z 4340 ⊝ z 9 ⊛ z 124 ⊛ z 4339 ⊝ z 10 ⊛ z 124 ⊛ z 4340) ⊝ mf ⊛ (z 10 ⊛ z 123 ⊛ z 4343 ⊝ z 123
    ⊛ z 4336 ⊝ z 124 ⊛ z 4337 ⊝ z 125 ⊛ z 4334 ⊝ z 125 ⊛ z 4341 ⊝ z 9 ⊛ z 123 ⊛ z 4344 ⊝ z 9 ⊛ z
    124 ⊛ z 4343 ⊝ z 10 ⊛ z 124 ⊛ z 4344)),
(4351, z 4345 ⊹ z 538 ⊛ z 4346 ⊹ z 544 ⊛ z 4347 ⊹ z 547 ⊛ z 4348 ⊹ z 549 ⊛ z 4349 ⊝ z 541 ⊛ z
    4350),
(4352, z 1 ⊛ z 3 ⊛ z 544 ⊝ z 2 ⊛ z 4),
(4353, z 2 ⊛ z 3 ⊹ z 1 ⊛ z 4 ⊛ z 544),
(4354, z 4 ⊛ z 121 ⊝ z 3 ⊛ z 218 ⊝ z 3 ⊛ z 4352 ⊝ z 4 ⊛ z 4353),
(4355, neg (z 1) ⊛ z 4 ⊝ z 2 ⊛ z 3 ⊛ z 544),
(4356, z 1 ⊛ z 3 ⊝ z 2 ⊛ z 4 ⊛ z 544),
(4357, z 3 ⊛ z 219 ⊹ z 3 ⊛ z 4355 ⊹ z 4 ⊛ z 4356 ⊝ z 4 ⊛ z 124),
(4358, z 547 ⊛ (z 5 ⊛ z 8 ⊹ z 6 ⊛ z 7)),
(4359, z 547 ⊛ (z 5 ⊛ z 7 ⊝ z 6 ⊛ z 8)),
(4360, rr ⊛ (z 60 ⊛ z 4358 ⊝ z 54 ⊛ z 4246 ⊝ z 55 ⊛ z 4250 ⊝ z 63 ⊛ z 4359)),
(4361, z 3 ⊛ z 4360 ⊝ z 4 ⊛ z 229),
(4362, rr ⊛ (z 62 ⊛ z 4358 ⊹ z 65 ⊛ z 4359 ⊹ z 7 ⊛ z 55 ⊛ z 4235 ⊝ z 8 ⊛ z 54 ⊛ z 4235)),
(4363, neg (z 3) ⊛ z 4362 ⊝ z 4 ⊛ z 223),
(4364, rr ⊛ (z 61 ⊛ z 4358 ⊝ z 64 ⊛ z 4359 ⊝ z 43 ⊛ z 54 ⊛ z 4247 ⊝ z 43 ⊛ z 55 ⊛ z 4251)),
(4365, neg (z 3) ⊛ z 4364 ⊝ z 4 ⊛ z 222),
(4366, z 4354 ⊛ u1 ⊹ z 4357 ⊛ u2 ⊹ z 4361 ⊛ u4 ⊹ z 4363 ⊛ u5 ⊹ z 567 ⊹ z 538 ⊛ z 556 ⊹ z 547 ⊛ z
    565 ⊝ z 4365 ⊛ u3 ⊝ z 541 ⊛ z 559 ⊝ z 544 ⊛ z 563),
(4367, z 2 ⊛ z 4229 ⊹ z 1 ⊛ z 5 ⊛ z 547 ⊹ z 1 ⊛ z 31 ⊛ z 544 ⊝ z 2 ⊛ z 6 ⊛ z 544),
(4368, neg (z 2) ⊛ z 4233 ⊝ z 1 ⊛ z 6 ⊛ z 547 ⊝ z 1 ⊛ z 41 ⊛ z 544 ⊝ z 2 ⊛ z 5 ⊛ z 544),
(4369, z 9 ⊛ z 4368 ⊝ z 10 ⊛ z 4352),
(4370, neg (z 9) ⊛ z 4352 ⊝ z 10 ⊛ z 4368),
(4371, z 6 ⊛ z 4367 ⊹ z 23 ⊛ z 4369 ⊹ z 5 ⊛ z 122 ⊛ z 547 ⊹ z 6 ⊛ z 10 ⊛ z 238 ⊛ z 547 ⊝ z 25 ⊛ z
    4370 ⊝ z 6 ⊛ z 9 ⊛ z 233 ⊛ z 547),
(4372, z 1 ⊛ z 6 ⊛ z 544 ⊹ z 2 ⊛ z 5 ⊛ z 547 ⊹ z 2 ⊛ z 31 ⊛ z 544 ⊝ z 1 ⊛ z 4229),
(4373, z 1 ⊛ z 4233 ⊹ z 1 ⊛ z 5 ⊛ z 544 ⊝ z 2 ⊛ z 6 ⊛ z 547 ⊝ z 2 ⊛ z 41 ⊛ z 544),
(4374, z 9 ⊛ z 4373 ⊹ z 10 ⊛ z 4355),
(4375, z 9 ⊛ z 4355 ⊝ z 10 ⊛ z 4373),
(4376, z 6 ⊛ z 4372 ⊹ z 23 ⊛ z 4374 ⊹ z 5 ⊛ z 125 ⊛ z 547 ⊹ z 6 ⊛ z 10 ⊛ z 239 ⊛ z 547 ⊝ z 25 ⊛ z
    4375 ⊝ z 6 ⊛ z 9 ⊛ z 234 ⊛ z 547),
(4377, z 5 ⊛ z 118 ⊛ z 547 ⊹ rr ⊛ z 3 ⊛ z 6 ⊛ z 43),
(4378, neg (z 4377) ⊝ d1 ⊛ z 3 ⊛ z 43),
(4379, z 25 ⊛ z 4229 ⊝ z 6 ⊛ z 4254 ⊝ z 5 ⊛ z 29 ⊛ z 547 ⊝ z 6 ⊛ z 10 ⊛ z 31 ⊛ z 547),
(4380, z 23 ⊛ z 4254 ⊹ z 25 ⊛ z 4266 ⊝ z 6 ⊛ z 9 ⊛ z 29 ⊛ z 547 ⊝ z 6 ⊛ z 10 ⊛ z 27 ⊛ z 547),
(4381, n 2 ⊛ z 33 ⊛ z 4379 ⊹ n 2 ⊛ z 34 ⊛ z 4380),
(4382, (n 2 ⊛ z 36 ⊛ z 4379 ⊝ z 33 ⊛ z 4381 ⊘ hpow (z 35) 1) ⊘ pow (z 36) 2),
(4383, z 39 ⊛ z 43 ⊛ z 4265 ⊹ qt 2 ⊛ rf ⊛ z 82 ⊛ z 4382),
(4384, z 4378 ⊝ z 4383 ⊝ d3 ⊛ z 43 ⊛ z 4265),
(4385, rr ⊛ z 3 ⊛ z 5 ⊛ z 43 ⊝ z 6 ⊛ z 118 ⊛ z 547),
(4386, d2 ⊛ z 43 ⊛ z 4265 ⊹ d1 ⊛ z 10 ⊛ z 43 ⊛ z 4228 ⊝ z 9 ⊛ z 4385),
(4387, (n 2 ⊛ z 36 ⊛ z 4380 ⊝ z 34 ⊛ z 4381 ⊘ hpow (z 35) 1) ⊘ pow (z 36) 2),
(4388, z 40 ⊛ z 43 ⊛ z 4265 ⊹ qt 2 ⊛ rf ⊛ z 82 ⊛ z 4387),
(4389, z 43 ⊛ (d2 ⊛ z 4263 ⊝ d3 ⊛ z 4228)),
(4390, z 10 ⊛ z 4385 ⊹ d1 ⊛ z 9 ⊛ z 43 ⊛ z 4228 ⊝ z 4389),
(4391, z 11 ⊛ z 39 ⊛ z 43 ⊛ z 4294 ⊹ z 12 ⊛ z 40 ⊛ z 90 ⊛ z 549 ⊹ qt 2 ⊛ rf ⊛ z 11 ⊛ z 94 ⊛ z 4382
    ⊝ z 11 ⊛ z 39 ⊛ z 90 ⊛ z 549 ⊝ z 11 ⊛ z 40 ⊛ z 43 ⊛ z 4287 ⊝ z 11 ⊛ z 40 ⊛ z 94 ⊛ z 549 ⊝ z 12
    ⊛ z 39 ⊛ z 43 ⊛ z 4287 ⊝ z 12 ⊛ z 39 ⊛ z 94 ⊛ z 549 ⊝ z 12 ⊛ z 40 ⊛ z 43 ⊛ z 4294 ⊝ qt 2 ⊛ rf
    ⊛ z 11 ⊛ z 90 ⊛ z 4387 ⊝ qt 2 ⊛ rf ⊛ z 12 ⊛ z 90 ⊛ z 4382 ⊝ qt 2 ⊛ rf ⊛ z 12 ⊛ z 94 ⊛ z 4387),
(4392, z 6 ⊛ z 4384 ⊹ z 5 ⊛ z 262 ⊛ z 547 ⊹ z 6 ⊛ z 10 ⊛ z 259 ⊛ z 547 ⊹ z 23 ⊛ (z 4386 ⊹ z 4388)
    ⊝ z 6 ⊛ z 9 ⊛ z 257 ⊛ z 547 ⊝ z 25 ⊛ (z 4390 ⊹ z 4391)),
(4393, d2 ⊛ z 4275 ⊹ d1 ⊛ z 10 ⊛ z 4234),
(4394, z 40 ⊛ z 4275 ⊹ qt 2 ⊛ rf ⊛ z 77 ⊛ z 4387),
(4395, neg d1 ⊛ z 4239 ⊝ d3 ⊛ z 4275),
(4396, z 39 ⊛ z 4275 ⊹ qt 2 ⊛ rf ⊛ z 77 ⊛ z 4382),
(4397, d3 ⊛ z 4267 ⊝ d2 ⊛ z 4256),
(4398, z 4397 ⊹ d1 ⊛ z 9 ⊛ z 4234),
(4399, z 11 ⊛ z 39 ⊛ z 4291 ⊹ z 12 ⊛ z 40 ⊛ z 92 ⊛ z 549 ⊹ qt 2 ⊛ rf ⊛ z 11 ⊛ z 97 ⊛ z 4382 ⊝ z 11
    ⊛ z 40 ⊛ z 4284 ⊝ z 12 ⊛ z 39 ⊛ z 4284 ⊝ z 12 ⊛ z 40 ⊛ z 4291 ⊝ z 11 ⊛ z 39 ⊛ z 92 ⊛ z 549 ⊝ z
    11 ⊛ z 40 ⊛ z 97 ⊛ z 549 ⊝ z 12 ⊛ z 39 ⊛ z 97 ⊛ z 549 ⊝ qt 2 ⊛ rf ⊛ z 11 ⊛ z 92 ⊛ z 4387 ⊝ qt
    2 ⊛ rf ⊛ z 12 ⊛ z 92 ⊛ z 4382 ⊝ qt 2 ⊛ rf ⊛ z 12 ⊛ z 97 ⊛ z 4387),
(4400, z 5 ⊛ z 263 ⊛ z 547 ⊹ z 6 ⊛ z 10 ⊛ z 261 ⊛ z 547 ⊹ z 23 ⊛ (z 4393 ⊹ z 4394) ⊹ z 6 ⊛ (z 4395
    ⊝ z 4396) ⊝ z 6 ⊛ z 9 ⊛ z 256 ⊛ z 547 ⊝ z 25 ⊛ (z 4398 ⊹ z 4399)),
(4401, d2 ⊛ z 4276 ⊹ d1 ⊛ z 10 ⊛ z 4235),
(4402, z 40 ⊛ z 4276 ⊹ qt 2 ⊛ rf ⊛ z 76 ⊛ z 4387),
(4403, neg d1 ⊛ z 4240 ⊝ d3 ⊛ z 4276),
(4404, z 39 ⊛ z 4276 ⊹ qt 2 ⊛ rf ⊛ z 76 ⊛ z 4382),
(4405, d3 ⊛ z 4270 ⊝ d2 ⊛ z 4259),
(4406, z 4405 ⊹ d1 ⊛ z 9 ⊛ z 4235),
(4407, z 11 ⊛ z 39 ⊛ z 4292 ⊹ z 12 ⊛ z 40 ⊛ z 91 ⊛ z 549 ⊹ qt 2 ⊛ rf ⊛ z 11 ⊛ z 95 ⊛ z 4382 ⊝ z 11
    ⊛ z 40 ⊛ z 4285 ⊝ z 12 ⊛ z 39 ⊛ z 4285 ⊝ z 12 ⊛ z 40 ⊛ z 4292 ⊝ z 11 ⊛ z 39 ⊛ z 91 ⊛ z 549 ⊝ z
    11 ⊛ z 40 ⊛ z 95 ⊛ z 549 ⊝ z 12 ⊛ z 39 ⊛ z 95 ⊛ z 549 ⊝ qt 2 ⊛ rf ⊛ z 11 ⊛ z 91 ⊛ z 4387 ⊝ qt
    2 ⊛ rf ⊛ z 12 ⊛ z 91 ⊛ z 4382 ⊝ qt 2 ⊛ rf ⊛ z 12 ⊛ z 95 ⊛ z 4387),
(4408, z 5 ⊛ z 264 ⊛ z 547 ⊹ z 6 ⊛ z 10 ⊛ z 260 ⊛ z 547 ⊹ z 23 ⊛ (z 4401 ⊹ z 4402) ⊹ z 6 ⊛ (z 4403
    ⊝ z 4404) ⊝ z 6 ⊛ z 9 ⊛ z 255 ⊛ z 547 ⊝ z 25 ⊛ (z 4406 ⊹ z 4407)),
(4409, qt 2 ⊛ rf ⊛ z 23 ⊛ z 83 ⊛ z 4387 ⊝ z 5 ⊛ z 250 ⊛ z 547 ⊝ z 6 ⊛ z 9 ⊛ z 254 ⊛ z 547 ⊝ qt 2 ⊛
    rf ⊛ z 6 ⊛ z 83 ⊛ z 4382),
(4410, d3 ⊛ z 4271 ⊝ d2 ⊛ z 4262),
(4411, z 11 ⊛ z 39 ⊛ z 4293 ⊹ z 12 ⊛ z 40 ⊛ z 93 ⊛ z 549 ⊹ qt 2 ⊛ rf ⊛ z 11 ⊛ z 96 ⊛ z 4382 ⊝ z 11
    ⊛ z 40 ⊛ z 4286 ⊝ z 12 ⊛ z 39 ⊛ z 4286 ⊝ z 12 ⊛ z 40 ⊛ z 4293 ⊝ z 11 ⊛ z 39 ⊛ z 93 ⊛ z 549 ⊝ z
    11 ⊛ z 40 ⊛ z 96 ⊛ z 549 ⊝ z 12 ⊛ z 39 ⊛ z 96 ⊛ z 549 ⊝ qt 2 ⊛ rf ⊛ z 11 ⊛ z 93 ⊛ z 4387 ⊝ qt
    2 ⊛ rf ⊛ z 12 ⊛ z 93 ⊛ z 4382 ⊝ qt 2 ⊛ rf ⊛ z 12 ⊛ z 96 ⊛ z 4387),
(4412, z 25 ⊛ (z 4410 ⊹ z 4411) ⊝ z 6 ⊛ z 10 ⊛ z 258 ⊛ z 547),
(4413, z 4371 ⊛ u1 ⊹ z 4376 ⊛ u2 ⊹ z 4392 ⊛ u3 ⊹ z 4400 ⊛ u4 ⊹ z 4408 ⊛ u5 ⊹ z 4409 ⊛ u8 ⊹ z 602 ⊹
    z 538 ⊛ z 573 ⊹ z 544 ⊛ z 616 ⊹ z 547 ⊛ z 594 ⊹ z 549 ⊛ z 586 ⊝ z 4412 ⊛ u7 ⊝ z 541 ⊛ z 578)]

/-- _mooreriderlean2012.py:9423-9543 -/
def part81 : List (ℕ × E) := [
(4414, rr ⊛ z 4239 ⊛ u4 ⊹ rr ⊛ z 4240 ⊛ u5 ⊹ z 1 ⊛ z 544 ⊛ u2 ⊹ rr ⊛ z 274 ⊹ z 544 ⊛ z 552 ⊹ rr ⊛
    z 547 ⊛ z 275 ⊝ z 2 ⊛ z 544 ⊛ u1 ⊝ z 1 ⊛ z 541 ⊛ q3p ⊝ z 2 ⊛ z 538 ⊛ q3p),
(4415, z 25 ⊛ z 4379 ⊝ z 6 ⊛ z 10 ⊛ z 33 ⊛ z 547),
(4416, (n 2 ⊛ z 35 ⊛ z 4415 ⊝ z 416 ⊛ z 4381) ⊘ hpow (z 35) 3),
(4417, (z 4381 ⊛ (z 25 ⊛ z 36 ⊝ n 2 ⊛ z 33 ⊛ z 420) ⊘ hpow (z 35) 1 ⊹ z 36 ⊛ (z 33 ⊛ z 4416 ⊹ n 2
    ⊛ z 420 ⊛ z 4379 ⊹ n 2 ⊛ z 6 ⊛ z 10 ⊛ z 36 ⊛ z 547)) ⊘ pow (z 36) 3),
(4418, (z 34 ⊛ z 36 ⊛ z 4416 ⊹ n 2 ⊛ z 36 ⊛ z 420 ⊛ z 4380 ⊝ n 2 ⊛ z 34 ⊛ z 420 ⊛ z 4381 ⊘ hpow (z
    35) 1) ⊘ pow (z 36) 3),
(4419, z 443 ⊛ z 4263 ⊝ z 434 ⊛ z 4228 ⊝ qt 2 ⊛ rf ⊛ z 28 ⊛ z 4417 ⊝ qt 2 ⊛ rf ⊛ z 32 ⊛ z 4418),
(4420, z 25 ⊛ z 4380 ⊝ z 6 ⊛ z 10 ⊛ z 34 ⊛ z 547),
(4421, (n 2 ⊛ z 35 ⊛ z 4420 ⊝ z 412 ⊛ z 4381) ⊘ hpow (z 35) 3),
(4422, (z 33 ⊛ z 36 ⊛ z 4421 ⊹ n 2 ⊛ z 36 ⊛ z 418 ⊛ z 4379 ⊝ n 2 ⊛ z 33 ⊛ z 418 ⊛ z 4381 ⊘ hpow (z
    35) 1) ⊘ pow (z 36) 3),
(4423, (z 4381 ⊛ (z 25 ⊛ z 36 ⊝ n 2 ⊛ z 34 ⊛ z 418) ⊘ hpow (z 35) 1 ⊹ z 36 ⊛ (z 34 ⊛ z 4421 ⊹ n 2
    ⊛ z 418 ⊛ z 4380 ⊹ n 2 ⊛ z 6 ⊛ z 10 ⊛ z 36 ⊛ z 547)) ⊘ pow (z 36) 3),
(4424, z 432 ⊛ z 4228 ⊝ z 444 ⊛ z 4263 ⊝ qt 2 ⊛ rf ⊛ z 28 ⊛ z 4422 ⊝ qt 2 ⊛ rf ⊛ z 32 ⊛ z 4423),
(4425, n 2 ⊛ z 23 ⊛ z 4380 ⊝ n 2 ⊛ z 6 ⊛ z 4379 ⊝ n 2 ⊛ z 5 ⊛ z 33 ⊛ z 547 ⊝ n 2 ⊛ z 6 ⊛ z 9 ⊛ z
    34 ⊛ z 547),
(4426, (n 2 ⊛ z 35 ⊛ z 4425 ⊝ z 411 ⊛ z 4381) ⊘ hpow (z 35) 3),
(4427, (n 2 ⊛ z 33 ⊛ z 421 ⊛ z 4381 ⊘ hpow (z 35) 1 ⊝ z 36 ⊛ (z 33 ⊛ z 4426 ⊹ n 2 ⊛ z 421 ⊛ z 4379
    ⊹ n 4 ⊛ z 5 ⊛ z 36 ⊛ z 547 ⊝ n 2 ⊛ z 6 ⊛ z 4381 ⊘ hpow (z 35) 1)) ⊘ pow (z 36) 3),
(4428, (n 2 ⊛ z 4381 ⊛ (z 23 ⊛ z 36 ⊝ z 34 ⊛ z 421) ⊘ hpow (z 35) 1 ⊹ z 36 ⊛ (z 34 ⊛ z 4426 ⊹ n 2
    ⊛ z 421 ⊛ z 4380 ⊹ n 4 ⊛ z 6 ⊛ z 9 ⊛ z 36 ⊛ z 547)) ⊘ pow (z 36) 3),
(4429, qt 2 ⊛ z 430 ⊛ z 4228 ⊹ qt 1 ⊛ rf ⊛ z 28 ⊛ z 4427 ⊝ qt 2 ⊛ z 446 ⊛ z 4263 ⊝ qt 1 ⊛ rf ⊛ z
    32 ⊛ z 4428),
(4430, rr ⊛ z 3 ⊹ d1 ⊛ z 3 ⊛ z 6 ⊹ z 3 ⊛ z 5 ⊛ z 4419 ⊹ d1 ⊛ z 4 ⊛ z 5 ⊛ z 547 ⊹ z 4 ⊛ z 6 ⊛ z 448
    ⊛ z 547 ⊹ z 4424 ⊛ (z 3 ⊛ z 24 ⊝ z 4 ⊛ z 10) ⊹ qt 2 ⊛ rf ⊛ z 4382 ⊛ (z 3 ⊛ z 10 ⊹ z 4 ⊛ z 24)
    ⊹ z 451 ⊛ (z 4 ⊛ z 26 ⊝ z 3 ⊛ z 9 ⊝ z 3 ⊛ z 5 ⊛ z 10 ⊛ z 547) ⊝ z 3 ⊛ z 5 ⊛ z 448 ⊝ z 4 ⊛ z 5
    ⊛ z 455 ⊝ z 3 ⊛ z 6 ⊛ z 455 ⊛ z 547 ⊝ qt 2 ⊛ rf ⊛ z 4 ⊛ z 5 ⊛ z 4387 ⊝ z 4429 ⊛ (z 3 ⊛ z 26 ⊹
    z 4 ⊛ z 9) ⊝ z 453 ⊛ (z 3 ⊛ z 10 ⊹ z 4 ⊛ z 24 ⊝ z 3 ⊛ z 5 ⊛ z 9 ⊛ z 547) ⊝ z 449 ⊛ (z 4 ⊛ z 10
    ⊝ z 3 ⊛ z 24 ⊝ z 4 ⊛ z 5 ⊛ z 9 ⊛ z 547)),
(4431, z 5 ⊛ z 4254 ⊝ z 6 ⊛ z 29 ⊛ z 547),
(4432, z 33 ⊛ z 4431 ⊹ z 410 ⊛ z 4379),
(4433, (n 2 ⊛ z 35 ⊛ z 4432 ⊝ z 415 ⊛ z 4381) ⊘ hpow (z 35) 3),
(4434, (z 34 ⊛ z 36 ⊛ z 4433 ⊹ n 2 ⊛ z 36 ⊛ z 417 ⊛ z 4380 ⊝ n 2 ⊛ z 34 ⊛ z 417 ⊛ z 4381 ⊘ hpow (z
    35) 1) ⊘ pow (z 36) 3),
(4435, (n 2 ⊛ z 33 ⊛ z 417 ⊛ z 4381 ⊘ hpow (z 35) 1 ⊹ z 36 ⊛ (n 2 ⊛ z 36 ⊛ z 4431 ⊝ n 2 ⊛ z 417 ⊛
    z 4379 ⊝ z 33 ⊛ z 4433 ⊝ z 410 ⊛ z 4381 ⊘ hpow (z 35) 1)) ⊘ pow (z 36) 3),
(4436, z 429 ⊛ z 4228 ⊹ z 441 ⊛ z 4263 ⊹ qt 2 ⊛ rf ⊛ z 32 ⊛ z 4434 ⊝ qt 2 ⊛ rf ⊛ z 28 ⊛ z 4435),
(4437, z 29 ⊛ z 4380 ⊹ z 34 ⊛ z 4254),
(4438, (n 2 ⊛ z 35 ⊛ z 4437 ⊝ z 414 ⊛ z 4381) ⊘ hpow (z 35) 3),
(4439, (z 33 ⊛ z 36 ⊛ z 4438 ⊹ n 2 ⊛ z 36 ⊛ z 419 ⊛ z 4379 ⊝ n 2 ⊛ z 33 ⊛ z 419 ⊛ z 4381 ⊘ hpow (z
    35) 1) ⊘ pow (z 36) 3),
(4440, (z 4381 ⊛ (z 29 ⊛ z 36 ⊝ n 2 ⊛ z 34 ⊛ z 419) ⊘ hpow (z 35) 1 ⊝ z 36 ⊛ (n 2 ⊛ z 36 ⊛ z 4254
    ⊝ n 2 ⊛ z 419 ⊛ z 4380 ⊝ z 34 ⊛ z 4438)) ⊘ pow (z 36) 3),
(4441, z 433 ⊛ z 4228 ⊝ z 445 ⊛ z 4263 ⊝ qt 2 ⊛ rf ⊛ z 28 ⊛ z 4439 ⊝ qt 2 ⊛ rf ⊛ z 32 ⊛ z 4440),
(4442, n 2 ⊛ z 27 ⊛ z 4380 ⊹ n 2 ⊛ z 31 ⊛ z 4379 ⊹ n 2 ⊛ z 33 ⊛ z 4229 ⊹ n 2 ⊛ z 34 ⊛ z 4266),
(4443, (n 2 ⊛ z 35 ⊛ z 4442 ⊝ z 413 ⊛ z 4381) ⊘ hpow (z 35) 3),
(4444, (n 2 ⊛ z 4381 ⊛ (z 31 ⊛ z 36 ⊝ z 33 ⊛ z 422) ⊘ hpow (z 35) 1 ⊝ z 36 ⊛ (n 4 ⊛ z 36 ⊛ z 4229
    ⊝ n 2 ⊛ z 422 ⊛ z 4379 ⊝ z 33 ⊛ z 4443)) ⊘ pow (z 36) 3),
(4445, (n 2 ⊛ z 4381 ⊛ (z 27 ⊛ z 36 ⊝ z 34 ⊛ z 422) ⊘ hpow (z 35) 1 ⊝ z 36 ⊛ (n 4 ⊛ z 36 ⊛ z 4266
    ⊝ n 2 ⊛ z 422 ⊛ z 4380 ⊝ z 34 ⊛ z 4443)) ⊘ pow (z 36) 3),
(4446, qt 2 ⊛ z 431 ⊛ z 4228 ⊹ qt 2 ⊛ z 442 ⊛ z 4263 ⊝ qt 1 ⊛ rf ⊛ z 28 ⊛ z 4444 ⊝ qt 1 ⊛ rf ⊛ z
    32 ⊛ z 4445),
(4447, z 4436 ⊹ d1 ⊛ z 4 ⊛ z 5 ⊹ z 4 ⊛ z 6 ⊛ z 448 ⊹ d1 ⊛ z 3 ⊛ z 6 ⊛ z 547 ⊹ z 3 ⊛ z 5 ⊛ z 9 ⊛ z
    453 ⊹ z 4 ⊛ z 5 ⊛ z 9 ⊛ z 449 ⊹ z 4 ⊛ z 5 ⊛ z 9 ⊛ z 4424 ⊹ z 3 ⊛ z 6 ⊛ z 9 ⊛ z 449 ⊛ z 547 ⊹ z
    4 ⊛ z 6 ⊛ z 10 ⊛ z 451 ⊛ z 547 ⊝ z 3 ⊛ z 6 ⊛ z 455 ⊝ z 4 ⊛ z 6 ⊛ z 4419 ⊝ z 6 ⊛ z 9 ⊛ z 4441 ⊝
    z 6 ⊛ z 10 ⊛ z 4446 ⊝ z 3 ⊛ z 5 ⊛ z 10 ⊛ z 451 ⊝ z 3 ⊛ z 5 ⊛ z 448 ⊛ z 547 ⊝ z 4 ⊛ z 5 ⊛ z 10
    ⊛ z 4429 ⊝ z 4 ⊛ z 5 ⊛ z 455 ⊛ z 547 ⊝ z 5 ⊛ z 9 ⊛ z 454 ⊛ z 547 ⊝ z 5 ⊛ z 10 ⊛ z 452 ⊛ z 547
    ⊝ qt 2 ⊛ rf ⊛ z 3 ⊛ z 6 ⊛ z 4387 ⊝ z 4 ⊛ z 6 ⊛ z 9 ⊛ z 453 ⊛ z 547 ⊝ qt 2 ⊛ rf ⊛ z 3 ⊛ z 5 ⊛ z
    9 ⊛ z 4382),
(4448, z 5 ⊛ z 9 ⊛ z 4446 ⊹ z 6 ⊛ z 10 ⊛ z 454 ⊛ z 547 ⊹ z 4424 ⊛ (z 3 ⊛ z 9 ⊝ z 4 ⊛ z 6 ⊛ z 10) ⊹
    qt 2 ⊛ rf ⊛ z 4382 ⊛ (z 4 ⊛ z 9 ⊹ z 3 ⊛ z 6 ⊛ z 10) ⊹ z 451 ⊛ (z 4 ⊛ z 10 ⊝ z 3 ⊛ z 6 ⊛ z 9 ⊝
    z 4 ⊛ z 5 ⊛ z 9 ⊛ z 547) ⊝ z 5 ⊛ z 10 ⊛ z 4441 ⊝ z 6 ⊛ z 9 ⊛ z 452 ⊛ z 547 ⊝ z 4429 ⊛ (z 3 ⊛ z
    10 ⊹ z 4 ⊛ z 6 ⊛ z 9) ⊝ z 453 ⊛ (z 4 ⊛ z 9 ⊹ z 3 ⊛ z 6 ⊛ z 10 ⊹ z 4 ⊛ z 5 ⊛ z 10 ⊛ z 547) ⊝ z
    449 ⊛ (z 4 ⊛ z 6 ⊛ z 10 ⊝ z 3 ⊛ z 9 ⊝ z 3 ⊛ z 5 ⊛ z 10 ⊛ z 547)),
(4449, z 4430 ⊛ u4 ⊹ z 4447 ⊛ u5 ⊹ z 4448 ⊛ u7 ⊹ z 645 ⊹ z 547 ⊛ z 662),
(4450, z 27 ⊛ z 4369 ⊹ z 29 ⊛ z 4370 ⊹ z 233 ⊛ z 4266 ⊹ z 238 ⊛ z 4254 ⊝ z 31 ⊛ z 4367 ⊝ z 122 ⊛ z
    4229),
(4451, z 27 ⊛ z 4374 ⊹ z 29 ⊛ z 4375 ⊹ z 234 ⊛ z 4266 ⊹ z 239 ⊛ z 4254 ⊝ z 31 ⊛ z 4372 ⊝ z 125 ⊛ z
    4229),
(4452, z 257 ⊛ z 4266 ⊹ z 259 ⊛ z 4254 ⊹ z 27 ⊛ (z 4386 ⊹ z 4388) ⊹ z 29 ⊛ (z 4390 ⊹ z 4391) ⊝ z
    31 ⊛ z 4384 ⊝ z 262 ⊛ z 4229),
(4453, z 256 ⊛ z 4266 ⊹ z 261 ⊛ z 4254 ⊹ z 27 ⊛ (z 4393 ⊹ z 4394) ⊹ z 29 ⊛ (z 4398 ⊹ z 4399) ⊝ z
    263 ⊛ z 4229 ⊝ z 31 ⊛ (z 4395 ⊝ z 4396)),
(4454, z 255 ⊛ z 4266 ⊹ z 260 ⊛ z 4254 ⊹ z 27 ⊛ (z 4401 ⊹ z 4402) ⊹ z 29 ⊛ (z 4406 ⊹ z 4407) ⊝ z
    264 ⊛ z 4229 ⊝ z 31 ⊛ (z 4403 ⊝ z 4404)),
(4455, z 258 ⊛ z 4254 ⊹ z 29 ⊛ (z 4410 ⊹ z 4411)),
(4456, z 250 ⊛ z 4229 ⊹ z 254 ⊛ z 4266 ⊹ qt 2 ⊛ rf ⊛ z 27 ⊛ z 83 ⊛ z 4387 ⊹ qt 2 ⊛ rf ⊛ z 31 ⊛ z
    83 ⊛ z 4382),
(4457, z 4450 ⊛ u1 ⊹ z 4451 ⊛ u2 ⊹ z 4452 ⊛ u3 ⊹ z 4453 ⊛ u4 ⊹ z 4454 ⊛ u5 ⊹ z 4455 ⊛ u7 ⊹ z 4456
    ⊛ u8 ⊹ z 625 ⊹ z 538 ⊛ z 621 ⊹ z 544 ⊛ z 626 ⊹ z 547 ⊛ z 624 ⊹ z 549 ⊛ z 623 ⊝ z 541 ⊛ z 622),
(4458, (z 525 ⊛ z 4366 ⊹ z 478 ⊛ z 496 ⊛ z 4413 ⊝ z 511 ⊛ z 4414 ⊝ z 535 ⊛ z 4449 ⊝ z 478 ⊛ z 528
    ⊛ z 4457) ⊘ z 494),
(4459, (z 526 ⊛ z 4366 ⊹ z 532 ⊛ z 4457 ⊝ z 512 ⊛ z 4414 ⊝ z 527 ⊛ z 4413 ⊝ z 537 ⊛ z 4449) ⊘ z
    494),
(4460, (z 519 ⊛ z 4366 ⊹ z 487 ⊛ z 496 ⊛ z 4413 ⊝ z 504 ⊛ z 4414 ⊝ z 533 ⊛ z 4449 ⊝ z 487 ⊛ z 528
    ⊛ z 4457) ⊘ z 494),
(4461, (z 523 ⊛ z 4366 ⊹ z 482 ⊛ z 496 ⊛ z 4413 ⊝ z 509 ⊛ z 4414 ⊝ z 534 ⊛ z 4449 ⊝ z 482 ⊛ z 528
    ⊛ z 4457) ⊘ z 494),
(4462, z 4351 ⊹ z 940 ⊛ z 4458 ⊹ z 944 ⊛ z 4459 ⊹ z 946 ⊛ z 4460 ⊹ z 536 ⊛ z 941 ⊛ z 4449 ⊘ z 494
    ⊝ z 947 ⊛ z 4461),
(4463, z 75 ⊛ z 4274 ⊹ z 79 ⊛ z 4283 ⊹ z 93 ⊛ z 4290 ⊹ z 96 ⊛ z 4296 ⊹ ie11 ⊛ z 75 ⊛ z 4264 ⊹ ie31
    ⊛ z 75 ⊛ z 4272 ⊹ ie31 ⊛ z 79 ⊛ z 4264 ⊹ ie33 ⊛ z 79 ⊛ z 4272 ⊹ if11 ⊛ z 93 ⊛ z 4288 ⊹ if11 ⊛
    z 96 ⊛ z 4295 ⊹ me ⊛ z 161 ⊛ (z 4339 ⊹ z 9 ⊛ z 4337 ⊝ z 10 ⊛ z 4336) ⊹ mf ⊛ z 150 ⊛ (z 4343 ⊹
    z 9 ⊛ z 4337 ⊝ z 10 ⊛ z 4336)),
(4464, z 4463 ⊹ z 543 ⊛ z 4350 ⊹ z 548 ⊛ z 4348 ⊹ z 551 ⊛ z 4349 ⊝ z 540 ⊛ z 4346 ⊝ z 546 ⊛ z
    4347),
(4465, z 4464 ⊹ z 970 ⊛ z 4458 ⊹ z 971 ⊛ z 4460 ⊹ z 975 ⊛ z 4459 ⊹ z 536 ⊛ z 967 ⊛ z 4449 ⊘ z 494
    ⊝ z 972 ⊛ z 4461),
(4466, z 53 ⊛ (z 4244 ⊹ id22 ⊛ z 4241)),
(4467, z 4466 ⊹ z 542 ⊛ z 4350 ⊝ z 539 ⊛ z 4346 ⊝ z 545 ⊛ z 4347 ⊝ z 550 ⊛ z 4349),
(4468, z 4467 ⊹ z 955 ⊛ z 4458 ⊹ z 957 ⊛ z 4460 ⊹ z 961 ⊛ z 4459 ⊹ z 536 ⊛ z 954 ⊛ z 4449 ⊘ z 494
    ⊝ z 958 ⊛ z 4461),
(4469, z 98 ⊛ z 4305 ⊹ z 99 ⊛ z 4311 ⊹ ig11 ⊛ z 98 ⊛ z 4299 ⊹ ig22 ⊛ z 99 ⊛ z 4309 ⊹ ig31 ⊛ z 98 ⊛
    z 4303 ⊝ mg ⊛ (z 200 ⊛ z 4327 ⊹ z 201 ⊛ z 4329 ⊝ z 205 ⊛ z 4322)),
(4470, z 4469 ⊹ z 902 ⊛ z 4458 ⊹ z 906 ⊛ z 4460 ⊹ z 536 ⊛ z 903 ⊛ z 4449 ⊘ z 494 ⊝ z 907 ⊛ z 4461)]

/-- _mooreriderlean2012.py:9544-9685 -/
def part82 : List (ℕ × E) := [
(4471, (z 1005 ⊛ z 4462 ⊹ z 1022 ⊛ z 4465 ⊝ z 1015 ⊛ z 4468 ⊝ z 1026 ⊛ z 4470) ⊘ z 1001),
(4472, ic11 ⊛ z 43 ⊛ z 545 ⊛ z 271),
(4473, ic31 ⊛ z 43 ⊛ z 545 ⊛ z 268),
(4474, z 545 ⊛ (ic31 ⊛ z 50 ⊝ ic33 ⊛ z 52)),
(4475, z 4474 ⊛ z 266 ⊹ z 52 ⊛ z 545 ⊛ z 759 ⊹ ic22 ⊛ z 51 ⊛ z 545 ⊛ z 267 ⊝ z 51 ⊛ z 545 ⊛ z 758),
(4476, z 545 ⊛ (ic11 ⊛ z 50 ⊝ ic31 ⊛ z 52)),
(4477, z 4476 ⊛ z 267 ⊝ z 4474 ⊛ z 265 ⊝ z 50 ⊛ z 545 ⊛ z 758 ⊝ z 52 ⊛ z 545 ⊛ z 757),
(4478, z 545 ⊛ (z 64 ⊛ z 781 ⊹ id11 ⊛ z 61 ⊛ z 283 ⊝ z 61 ⊛ z 783 ⊝ id11 ⊛ z 64 ⊛ z 281)),
(4479, ic31 ⊛ z 43 ⊛ z 545 ⊛ z 271),
(4480, ic33 ⊛ z 43 ⊛ z 545 ⊛ z 268),
(4481, z 50 ⊛ z 545 ⊛ z 759 ⊹ z 51 ⊛ z 545 ⊛ z 757 ⊝ z 4476 ⊛ z 266 ⊝ ic22 ⊛ z 51 ⊛ z 545 ⊛ z 265),
(4482, z 1326 ⊛ q4p ⊹ z 43 ⊛ z 1328 ⊛ q3p ⊝ z 7 ⊛ z 48 ⊛ q5p ⊝ z 43 ⊛ z 545 ⊛ z 285),
(4483, id22 ⊛ (z 53 ⊝ z 51 ⊛ z 545)),
(4484, z 64 ⊛ z 545 ⊛ z 782 ⊹ (z 53 ⊝ z 51 ⊛ z 545) ⊛ z 783 ⊝ z 4483 ⊛ z 283 ⊝ id11 ⊛ z 64 ⊛ z 545
    ⊛ z 282),
(4485, z 60 ⊛ q4p ⊹ z 43 ⊛ z 58 ⊛ q3p ⊝ z 8 ⊛ z 48 ⊛ q5p ⊝ z 43 ⊛ z 545 ⊛ z 289),
(4486, z 4483 ⊛ z 281 ⊹ id11 ⊛ z 61 ⊛ z 545 ⊛ z 282 ⊝ z 61 ⊛ z 545 ⊛ z 782 ⊝ (z 53 ⊝ z 51 ⊛ z 545)
    ⊛ z 781),
(4487, ie11 ⊛ z 43 ⊛ z 545 ⊛ z 308),
(4488, ie31 ⊛ z 43 ⊛ z 545 ⊛ z 268),
(4489, z 545 ⊛ (ie31 ⊛ z 81 ⊹ ie33 ⊛ z 52)),
(4490, z 52 ⊛ z 545 ⊛ z 802 ⊹ ie22 ⊛ z 82 ⊛ z 545 ⊛ z 294 ⊝ z 4489 ⊛ z 293 ⊝ z 82 ⊛ z 545 ⊛ z 801),
(4491, ie22 ⊛ z 43 ⊛ z 545 ⊛ z 313),
(4492, z 545 ⊛ (ie11 ⊛ z 81 ⊹ ie31 ⊛ z 52)),
(4493, z 4489 ⊛ z 292 ⊹ z 81 ⊛ z 545 ⊛ z 801 ⊝ z 4492 ⊛ z 294 ⊝ z 52 ⊛ z 545 ⊛ z 800),
(4494, if22 ⊛ z 43 ⊛ z 545 ⊛ z 313),
(4495, z 545 ⊛ (z 94 ⊛ z 830 ⊹ if11 ⊛ z 90 ⊛ z 323 ⊝ z 90 ⊛ z 832 ⊝ if11 ⊛ z 94 ⊛ z 321)),
(4496, ie31 ⊛ z 43 ⊛ z 545 ⊛ z 308),
(4497, ie33 ⊛ z 43 ⊛ z 545 ⊛ z 268),
(4498, z 4492 ⊛ z 293 ⊹ z 82 ⊛ z 545 ⊛ z 800 ⊝ z 81 ⊛ z 545 ⊛ z 802 ⊝ ie22 ⊛ z 82 ⊛ z 545 ⊛ z 292),
(4499, z 550 ⊛ (z 11 ⊛ z 80 ⊹ z 12 ⊛ z 74)),
(4500, z 550 ⊛ (z 11 ⊛ z 78 ⊹ z 12 ⊛ z 73)),
(4501, z 550 ⊛ (z 11 ⊛ z 79 ⊹ z 12 ⊛ z 75)),
(4502, z 550 ⊛ (z 11 ⊛ z 32 ⊹ z 12 ⊛ z 28)),
(4503, z 4499 ⊛ q4p ⊹ z 4500 ⊛ q5p ⊹ z 4501 ⊛ q7p ⊹ z 43 ⊛ z 4502 ⊛ q3p ⊝ z 43 ⊛ z 545 ⊛ z 324),
(4504, neg (z 82) ⊛ z 545 ⊝ z 83 ⊛ z 550),
(4505, z 4504 ⊛ z 832 ⊹ z 94 ⊛ z 545 ⊛ z 831 ⊝ if22 ⊛ z 4504 ⊛ z 323 ⊝ if11 ⊛ z 94 ⊛ z 545 ⊛ z
    322),
(4506, z 550 ⊛ (z 11 ⊛ z 74 ⊝ z 12 ⊛ z 80)),
(4507, z 550 ⊛ (z 11 ⊛ z 73 ⊝ z 12 ⊛ z 78)),
(4508, z 550 ⊛ (z 11 ⊛ z 75 ⊝ z 12 ⊛ z 79)),
(4509, z 550 ⊛ (z 11 ⊛ z 28 ⊝ z 12 ⊛ z 32)),
(4510, neg (z 4506) ⊛ q4p ⊝ z 4507 ⊛ q5p ⊝ z 4508 ⊛ q7p ⊝ z 43 ⊛ z 4509 ⊛ q3p ⊝ z 43 ⊛ z 545 ⊛ z
    329),
(4511, if22 ⊛ z 4504 ⊛ z 321 ⊹ if11 ⊛ z 90 ⊛ z 545 ⊛ z 322 ⊝ z 4504 ⊛ z 830 ⊝ z 90 ⊛ z 545 ⊛ z
    831),
(4512, ig11 ⊛ z 43 ⊛ z 545 ⊛ z 341),
(4513, ig31 ⊛ z 43 ⊛ z 545 ⊛ z 348),
(4514, z 545 ⊛ (ig31 ⊛ z 110 ⊹ ig33 ⊛ z 115)),
(4515, z 115 ⊛ z 545 ⊛ z 853 ⊹ ig22 ⊛ z 112 ⊛ z 545 ⊛ z 336 ⊝ z 4514 ⊛ z 335 ⊝ z 112 ⊛ z 545 ⊛ z
    852),
(4516, ig22 ⊛ z 43 ⊛ z 545 ⊛ z 344),
(4517, z 545 ⊛ (ig11 ⊛ z 110 ⊹ ig31 ⊛ z 115)),
(4518, z 4514 ⊛ z 334 ⊹ z 110 ⊛ z 545 ⊛ z 852 ⊝ z 4517 ⊛ z 336 ⊝ z 115 ⊛ z 545 ⊛ z 851),
(4519, ig31 ⊛ z 43 ⊛ z 545 ⊛ z 341),
(4520, ig33 ⊛ z 43 ⊛ z 545 ⊛ z 348),
(4521, z 4517 ⊛ z 335 ⊹ z 112 ⊛ z 545 ⊛ z 851 ⊝ z 110 ⊛ z 545 ⊛ z 853 ⊝ ig22 ⊛ z 112 ⊛ z 545 ⊛ z
    334),
(4522, z 545 ⊛ (z 354 ⊹ z 3 ⊛ z 43 ⊛ z 353)),
(4523, z 545 ⊛ (z 43 ⊛ z 352 ⊹ z 118 ⊛ z 356)),
(4524, z 5 ⊛ z 4522 ⊹ z 41 ⊛ z 4523),
(4525, z 52 ⊛ z 545 ⊛ (z 170 ⊛ q4p ⊹ z 171 ⊛ q3p ⊝ z 172 ⊛ q5p) ⊹ z 4524 ⊹ z 171 ⊛ z 545 ⊛ z 267 ⊝
    z 51 ⊛ z 545 ⊛ (z 173 ⊛ q4p ⊹ z 174 ⊛ q5p ⊹ z 175 ⊛ q3p) ⊝ z 22 ⊛ z 545 ⊛ z 276 ⊝ z 175 ⊛ z
    545 ⊛ z 266),
(4526, z 6 ⊛ z 4522 ⊝ z 31 ⊛ z 4523),
(4527, z 51 ⊛ z 545 ⊛ (z 176 ⊛ q4p ⊹ z 177 ⊛ q5p ⊹ z 178 ⊛ q3p) ⊹ z 50 ⊛ z 545 ⊛ (z 170 ⊛ q4p ⊹ z
    171 ⊛ q3p ⊝ z 172 ⊛ q5p) ⊹ z 4526 ⊹ z 178 ⊛ z 545 ⊛ z 266 ⊝ z 21 ⊛ z 545 ⊛ z 276 ⊝ z 171 ⊛ z
    545 ⊛ z 265),
(4528, z 13 ⊛ z 4525 ⊹ z 14 ⊛ z 4527),
(4529, l6 ⊛ z 43 ⊛ z 545 ⊛ z 344),
(4530, z 112 ⊛ z 545 ⊛ (z 201 ⊛ q9p ⊹ z 202 ⊛ q3p ⊹ z 203 ⊛ q4p ⊹ z 204 ⊛ q5p) ⊹ z 115 ⊛ z 545 ⊛
    (z 197 ⊛ q3p ⊹ z 198 ⊛ q5p ⊹ z 199 ⊛ q4p ⊝ z 200 ⊛ q9p) ⊹ z 4528 ⊹ z 197 ⊛ z 545 ⊛ z 336 ⊹ z
    202 ⊛ z 545 ⊛ z 335 ⊝ z 4529),
(4531, z 43 ⊛ z 545 ⊛ (z 21 ⊛ z 268 ⊝ z 22 ⊛ z 271)),
(4532, z 4531 ⊹ z 3 ⊛ z 4523 ⊹ z 175 ⊛ z 545 ⊛ z 265 ⊝ z 50 ⊛ z 545 ⊛ (z 173 ⊛ q4p ⊹ z 174 ⊛ q5p ⊹
    z 175 ⊛ q3p) ⊝ z 52 ⊛ z 545 ⊛ (z 176 ⊛ q4p ⊹ z 177 ⊛ q5p ⊹ z 178 ⊛ q3p) ⊝ z 178 ⊛ z 545 ⊛ z
    267),
(4533, z 17 ⊛ z 4532 ⊹ z 19 ⊛ z 4527 ⊝ z 16 ⊛ z 4525),
(4534, z 43 ⊛ z 545 ⊛ (l5 ⊛ z 348 ⊝ l6 ⊛ z 341)),
(4535, z 4533 ⊝ z 110 ⊛ z 545 ⊛ (z 201 ⊛ q9p ⊹ z 202 ⊛ q3p ⊹ z 203 ⊛ q4p ⊹ z 204 ⊛ q5p) ⊝ z 115 ⊛
    z 545 ⊛ (z 205 ⊛ q9p ⊹ z 206 ⊛ q3p ⊹ z 207 ⊛ q4p ⊹ z 208 ⊛ q5p) ⊝ z 4534 ⊝ z 202 ⊛ z 545 ⊛ z
    334 ⊝ z 206 ⊛ z 545 ⊛ z 336),
(4536, z 20 ⊛ z 4527 ⊝ z 15 ⊛ z 4532 ⊝ z 18 ⊛ z 4525),
(4537, l5 ⊛ z 43 ⊛ z 545 ⊛ z 344),
(4538, z 112 ⊛ z 545 ⊛ (z 205 ⊛ q9p ⊹ z 206 ⊛ q3p ⊹ z 207 ⊛ q4p ⊹ z 208 ⊛ q5p) ⊹ z 4536 ⊹ z 4537 ⊹
    z 206 ⊛ z 545 ⊛ z 335 ⊝ z 110 ⊛ z 545 ⊛ (z 197 ⊛ q3p ⊹ z 198 ⊛ q5p ⊹ z 199 ⊛ q4p ⊝ z 200 ⊛
    q9p) ⊝ z 197 ⊛ z 545 ⊛ z 334),
(4539, z 50 ⊛ z 545 ⊛ (z 128 ⊛ q5p ⊹ z 129 ⊛ q4p ⊹ z 130 ⊛ q3p) ⊹ z 51 ⊛ z 545 ⊛ (z 134 ⊛ q4p ⊹ z
    135 ⊛ q5p ⊹ z 136 ⊛ q3p) ⊹ z 4526 ⊹ l1 ⊛ z 545 ⊛ z 276 ⊹ z 136 ⊛ z 545 ⊛ z 266 ⊝ z 130 ⊛ z 545
    ⊛ z 265),
(4540, z 51 ⊛ z 545 ⊛ (z 131 ⊛ q4p ⊹ z 132 ⊛ q5p ⊹ z 133 ⊛ q3p) ⊹ z 52 ⊛ z 545 ⊛ (z 128 ⊛ q5p ⊹ z
    129 ⊛ q4p ⊹ z 130 ⊛ q3p) ⊹ z 4524 ⊹ z 130 ⊛ z 545 ⊛ z 267 ⊹ z 133 ⊛ z 545 ⊛ z 266 ⊝ l2 ⊛ z 545
    ⊛ z 276),
(4541, z 43 ⊛ z 545 ⊛ (l1 ⊛ z 268 ⊹ l2 ⊛ z 271)),
(4542, z 50 ⊛ z 545 ⊛ (z 131 ⊛ q4p ⊹ z 132 ⊛ q5p ⊹ z 133 ⊛ q3p) ⊹ z 3 ⊛ z 4523 ⊝ z 52 ⊛ z 545 ⊛ (z
    134 ⊛ q4p ⊹ z 135 ⊛ q5p ⊹ z 136 ⊛ q3p) ⊝ z 4541 ⊝ z 133 ⊛ z 545 ⊛ z 265 ⊝ z 136 ⊛ z 545 ⊛ z
    267),
(4543, z 50 ⊛ z 545 ⊛ (z 143 ⊛ q5p ⊹ z 144 ⊛ q4p ⊹ z 145 ⊛ q3p) ⊹ z 4526 ⊹ d1 ⊛ z 545 ⊛ z 276 ⊝ z
    145 ⊛ z 545 ⊛ z 265),
(4544, z 158 ⊛ z 43 ⊛ z 545 ⊛ z 313),
(4545, z 82 ⊛ z 545 ⊛ (z 164 ⊛ q5p ⊹ z 165 ⊛ q4p ⊹ z 166 ⊛ q3p) ⊹ z 4544 ⊹ z 166 ⊛ z 545 ⊛ z 293 ⊝
    z 81 ⊛ z 545 ⊛ (z 159 ⊛ q3p ⊹ z 160 ⊛ q5p ⊹ z 161 ⊛ q7p ⊹ z 162 ⊛ q4p) ⊝ z 159 ⊛ z 545 ⊛ z
    292),
(4546, z 51 ⊛ z 545 ⊛ (z 140 ⊛ q4p ⊹ z 141 ⊛ q5p ⊹ z 142 ⊛ q3p) ⊹ z 52 ⊛ z 545 ⊛ (z 143 ⊛ q5p ⊹ z
    144 ⊛ q4p ⊹ z 145 ⊛ q3p) ⊹ z 4524 ⊹ z 142 ⊛ z 545 ⊛ z 266 ⊹ z 145 ⊛ z 545 ⊛ z 267),
(4547, d1 ⊛ z 43 ⊛ z 545 ⊛ z 268),
(4548, z 50 ⊛ z 545 ⊛ (z 140 ⊛ q4p ⊹ z 141 ⊛ q5p ⊹ z 142 ⊛ q3p) ⊹ z 3 ⊛ z 4523 ⊝ z 4547 ⊝ z 142 ⊛
    z 545 ⊛ z 265),
(4549, z 43 ⊛ z 545 ⊛ (d2 ⊛ z 308 ⊹ l4 ⊛ z 308 ⊝ z 158 ⊛ z 268)),
(4550, z 4549 ⊝ z 52 ⊛ z 545 ⊛ (z 164 ⊛ q5p ⊹ z 165 ⊛ q4p ⊹ z 166 ⊛ q3p) ⊝ z 81 ⊛ z 545 ⊛ (z 167 ⊛
    q5p ⊹ z 168 ⊛ q4p ⊹ z 169 ⊛ q3p) ⊝ z 166 ⊛ z 545 ⊛ z 294 ⊝ z 169 ⊛ z 545 ⊛ z 292),
(4551, z 163 ⊛ z 43 ⊛ z 545 ⊛ z 313),
(4552, z 82 ⊛ z 545 ⊛ (z 167 ⊛ q5p ⊹ z 168 ⊛ q4p ⊹ z 169 ⊛ q3p) ⊹ z 52 ⊛ z 545 ⊛ (z 159 ⊛ q3p ⊹ z
    160 ⊛ q5p ⊹ z 161 ⊛ q7p ⊹ z 162 ⊛ q4p) ⊹ z 159 ⊛ z 545 ⊛ z 294 ⊹ z 169 ⊛ z 545 ⊛ z 293 ⊝ z
    4551),
(4553, d3 ⊛ z 43 ⊛ z 545 ⊛ z 313),
(4554, z 82 ⊛ z 545 ⊛ (z 152 ⊛ q5p ⊹ z 153 ⊛ q4p ⊹ z 154 ⊛ q3p) ⊹ z 4553 ⊹ z 154 ⊛ z 545 ⊛ z 293 ⊝
    z 81 ⊛ z 545 ⊛ (z 148 ⊛ q3p ⊹ z 149 ⊛ q5p ⊹ z 150 ⊛ q7p ⊹ z 151 ⊛ q4p) ⊝ z 148 ⊛ z 545 ⊛ z
    292),
(4555, z 43 ⊛ z 545 ⊛ (d2 ⊛ z 308 ⊝ d3 ⊛ z 268)),
(4556, z 4555 ⊝ z 52 ⊛ z 545 ⊛ (z 152 ⊛ q5p ⊹ z 153 ⊛ q4p ⊹ z 154 ⊛ q3p) ⊝ z 81 ⊛ z 545 ⊛ (z 155 ⊛
    q5p ⊹ z 156 ⊛ q4p ⊹ z 157 ⊛ q3p) ⊝ z 154 ⊛ z 545 ⊛ z 294 ⊝ z 157 ⊛ z 545 ⊛ z 292),
(4557, d2 ⊛ z 43 ⊛ z 545 ⊛ z 313),
(4558, z 82 ⊛ z 545 ⊛ (z 155 ⊛ q5p ⊹ z 156 ⊛ q4p ⊹ z 157 ⊛ q3p) ⊹ z 52 ⊛ z 545 ⊛ (z 148 ⊛ q3p ⊹ z
    149 ⊛ q5p ⊹ z 150 ⊛ q7p ⊹ z 151 ⊛ q4p) ⊹ z 148 ⊛ z 545 ⊛ z 294 ⊹ z 157 ⊛ z 545 ⊛ z 293 ⊝ z
    4557)]

/-- _mooreriderlean2012.py:9686-9785 -/
def part83 : List (ℕ × E) := [
(4559, z 45 ⊛ z 4472 ⊹ z 45 ⊛ z 4475 ⊹ z 46 ⊛ z 4477 ⊹ z 49 ⊛ z 4479 ⊹ z 49 ⊛ z 4481 ⊹ z 60 ⊛ z
    4484 ⊹ z 63 ⊛ z 4486 ⊹ z 74 ⊛ z 4490 ⊹ z 77 ⊛ z 4493 ⊹ z 80 ⊛ z 4498 ⊹ z 92 ⊛ z 4505 ⊹ z 97 ⊛
    z 4511 ⊹ z 109 ⊛ z 4515 ⊹ z 113 ⊛ z 4518 ⊹ z 117 ⊛ z 4521 ⊹ id11 ⊛ z 60 ⊛ z 4482 ⊹ id11 ⊛ z 63
    ⊛ z 4485 ⊹ if11 ⊛ z 92 ⊛ z 4503 ⊹ if11 ⊛ z 97 ⊛ z 4510 ⊹ md ⊛ z 3 ⊛ z 119 ⊛ z 4523 ⊹ mg ⊛ (z
    209 ⊛ z 4530 ⊹ z 212 ⊛ z 4535 ⊹ z 215 ⊛ z 4538) ⊝ z 45 ⊛ z 4473 ⊝ z 46 ⊛ z 4478 ⊝ z 49 ⊛ z
    4480 ⊝ z 74 ⊛ z 4487 ⊝ z 74 ⊛ z 4488 ⊝ z 77 ⊛ z 4491 ⊝ z 77 ⊛ z 4494 ⊝ z 77 ⊛ z 4495 ⊝ z 80 ⊛
    z 4496 ⊝ z 80 ⊛ z 4497 ⊝ z 109 ⊛ z 4512 ⊝ z 109 ⊛ z 4513 ⊝ z 113 ⊛ z 4516 ⊝ z 117 ⊛ z 4519 ⊝ z
    117 ⊛ z 4520 ⊝ ic22 ⊛ z 46 ⊛ z 545 ⊛ z 276 ⊝ id22 ⊛ z 46 ⊛ z 545 ⊛ z 276 ⊝ mc ⊛ (z 131 ⊛ z
    4539 ⊝ z 134 ⊛ z 4540 ⊝ z 139 ⊛ z 4542) ⊝ me ⊛ (z 140 ⊛ z 4543 ⊹ z 140 ⊛ z 4545 ⊹ z 168 ⊛ z
    4543 ⊹ z 168 ⊛ z 4545 ⊹ z 10 ⊛ z 162 ⊛ z 4546 ⊝ z 147 ⊛ z 4548 ⊝ z 162 ⊛ z 4550 ⊝ z 165 ⊛ z
    4552 ⊝ z 9 ⊛ z 147 ⊛ z 4550 ⊝ z 9 ⊛ z 162 ⊛ z 4548 ⊝ z 9 ⊛ z 165 ⊛ z 4546 ⊝ z 10 ⊛ z 147 ⊛ z
    4552 ⊝ z 10 ⊛ z 165 ⊛ z 4548) ⊝ mf ⊛ (z 140 ⊛ z 4543 ⊹ z 140 ⊛ z 4554 ⊹ z 156 ⊛ z 4543 ⊹ z 156
    ⊛ z 4554 ⊹ z 10 ⊛ z 151 ⊛ z 4546 ⊝ z 147 ⊛ z 4548 ⊝ z 151 ⊛ z 4556 ⊝ z 153 ⊛ z 4558 ⊝ z 9 ⊛ z
    147 ⊛ z 4556 ⊝ z 9 ⊛ z 151 ⊛ z 4548 ⊝ z 9 ⊛ z 153 ⊛ z 4546 ⊝ z 10 ⊛ z 147 ⊛ z 4558 ⊝ z 10 ⊛ z
    153 ⊛ z 4548)),
(4560, md ⊛ (z 1 ⊛ z 4522 ⊝ z 2 ⊛ z 4523) ⊹ mg ⊛ (z 182 ⊛ z 4530 ⊹ z 187 ⊛ z 4535 ⊹ z 192 ⊛ z
    4538) ⊹ me ⊛ (z 120 ⊛ z 4546 ⊹ z 122 ⊛ z 4543 ⊹ z 122 ⊛ z 4545 ⊹ z 9 ⊛ z 120 ⊛ z 4552 ⊝ z 121
    ⊛ z 4548 ⊝ z 9 ⊛ z 121 ⊛ z 4550 ⊝ z 10 ⊛ z 120 ⊛ z 4550 ⊝ z 10 ⊛ z 121 ⊛ z 4552) ⊹ mf ⊛ (z 120
    ⊛ z 4546 ⊹ z 122 ⊛ z 4543 ⊹ z 122 ⊛ z 4554 ⊹ z 9 ⊛ z 120 ⊛ z 4558 ⊝ z 121 ⊛ z 4548 ⊝ z 9 ⊛ z
    121 ⊛ z 4556 ⊝ z 10 ⊛ z 120 ⊛ z 4556 ⊝ z 10 ⊛ z 121 ⊛ z 4558) ⊝ mc ⊛ (z 121 ⊛ z 4542 ⊝ z 120 ⊛
    z 4540 ⊝ z 122 ⊛ z 4539)),
(4561, z 50 ⊛ z 4473 ⊹ z 51 ⊛ z 4477 ⊹ z 52 ⊛ z 4479 ⊹ z 52 ⊛ z 4481 ⊹ z 52 ⊛ z 4498 ⊹ z 61 ⊛ z
    4484 ⊹ z 64 ⊛ z 4486 ⊹ z 81 ⊛ z 4490 ⊹ z 82 ⊛ z 4493 ⊹ z 90 ⊛ z 4505 ⊹ z 94 ⊛ z 4511 ⊹ z 110 ⊛
    z 4515 ⊹ z 112 ⊛ z 4518 ⊹ z 115 ⊛ z 4521 ⊹ id11 ⊛ z 61 ⊛ z 4482 ⊹ id11 ⊛ z 64 ⊛ z 4485 ⊹ if11
    ⊛ z 90 ⊛ z 4503 ⊹ if11 ⊛ z 94 ⊛ z 4510 ⊹ mc ⊛ (z 130 ⊛ z 4542 ⊹ z 137 ⊛ z 4540 ⊹ z 138 ⊛ z
    4539) ⊹ mg ⊛ (z 211 ⊛ z 4530 ⊹ z 214 ⊛ z 4535 ⊹ z 217 ⊛ z 4538) ⊝ z 50 ⊛ z 4472 ⊝ z 50 ⊛ z
    4475 ⊝ z 51 ⊛ z 4478 ⊝ z 52 ⊛ z 4480 ⊝ z 52 ⊛ z 4496 ⊝ z 52 ⊛ z 4497 ⊝ z 81 ⊛ z 4487 ⊝ z 81 ⊛
    z 4488 ⊝ z 82 ⊛ z 4491 ⊝ z 82 ⊛ z 4494 ⊝ z 82 ⊛ z 4495 ⊝ z 110 ⊛ z 4512 ⊝ z 110 ⊛ z 4513 ⊝ z
    112 ⊛ z 4516 ⊝ z 115 ⊛ z 4519 ⊝ z 115 ⊛ z 4520 ⊝ md ⊛ z 118 ⊛ z 4522 ⊝ ic22 ⊛ z 51 ⊛ z 545 ⊛ z
    276 ⊝ id22 ⊛ z 51 ⊛ z 545 ⊛ z 276 ⊝ me ⊛ (z 126 ⊛ z 4546 ⊹ z 169 ⊛ z 4543 ⊹ z 169 ⊛ z 4545 ⊹ z
    9 ⊛ z 126 ⊛ z 4552 ⊹ z 10 ⊛ z 159 ⊛ z 4546 ⊝ z 145 ⊛ z 4548 ⊝ z 146 ⊛ z 4543 ⊝ z 146 ⊛ z 4545
    ⊝ z 159 ⊛ z 4550 ⊝ z 166 ⊛ z 4552 ⊝ z 9 ⊛ z 145 ⊛ z 4550 ⊝ z 9 ⊛ z 159 ⊛ z 4548 ⊝ z 9 ⊛ z 166
    ⊛ z 4546 ⊝ z 10 ⊛ z 126 ⊛ z 4550 ⊝ z 10 ⊛ z 145 ⊛ z 4552 ⊝ z 10 ⊛ z 166 ⊛ z 4548) ⊝ mf ⊛ (z
    126 ⊛ z 4546 ⊹ z 157 ⊛ z 4543 ⊹ z 157 ⊛ z 4554 ⊹ z 9 ⊛ z 126 ⊛ z 4558 ⊹ z 10 ⊛ z 148 ⊛ z 4546
    ⊝ z 145 ⊛ z 4548 ⊝ z 146 ⊛ z 4543 ⊝ z 146 ⊛ z 4554 ⊝ z 148 ⊛ z 4556 ⊝ z 154 ⊛ z 4558 ⊝ z 9 ⊛ z
    145 ⊛ z 4556 ⊝ z 9 ⊛ z 148 ⊛ z 4548 ⊝ z 9 ⊛ z 154 ⊛ z 4546 ⊝ z 10 ⊛ z 126 ⊛ z 4556 ⊝ z 10 ⊛ z
    145 ⊛ z 4558 ⊝ z 10 ⊛ z 154 ⊛ z 4548)),
(4562, z 47 ⊛ z 4477 ⊹ z 48 ⊛ z 4479 ⊹ z 48 ⊛ z 4481 ⊹ z 65 ⊛ z 4486 ⊹ z 73 ⊛ z 4490 ⊹ z 76 ⊛ z
    4493 ⊹ z 78 ⊛ z 4498 ⊹ z 91 ⊛ z 4505 ⊹ z 95 ⊛ z 4511 ⊹ z 111 ⊛ z 4515 ⊹ z 114 ⊛ z 4518 ⊹ z 116
    ⊛ z 4521 ⊹ id11 ⊛ z 65 ⊛ z 4485 ⊹ if11 ⊛ z 91 ⊛ z 4503 ⊹ if11 ⊛ z 95 ⊛ z 4510 ⊹ mg ⊛ (z 210 ⊛
    z 4530 ⊹ z 213 ⊛ z 4535 ⊹ z 216 ⊛ z 4538) ⊝ z 47 ⊛ z 4478 ⊝ z 48 ⊛ z 4480 ⊝ z 62 ⊛ z 4484 ⊝ z
    73 ⊛ z 4487 ⊝ z 73 ⊛ z 4488 ⊝ z 76 ⊛ z 4491 ⊝ z 76 ⊛ z 4494 ⊝ z 76 ⊛ z 4495 ⊝ z 78 ⊛ z 4496 ⊝
    z 78 ⊛ z 4497 ⊝ z 111 ⊛ z 4512 ⊝ z 111 ⊛ z 4513 ⊝ z 114 ⊛ z 4516 ⊝ z 116 ⊛ z 4519 ⊝ z 116 ⊛ z
    4520 ⊝ id11 ⊛ z 62 ⊛ z 4482 ⊝ ic22 ⊛ z 47 ⊛ z 545 ⊛ z 276 ⊝ id22 ⊛ z 47 ⊛ z 545 ⊛ z 276 ⊝ mc ⊛
    (z 132 ⊛ z 4539 ⊝ z 128 ⊛ z 4542 ⊝ z 135 ⊛ z 4540) ⊝ me ⊛ (z 141 ⊛ z 4543 ⊹ z 141 ⊛ z 4545 ⊹ z
    167 ⊛ z 4543 ⊹ z 167 ⊛ z 4545 ⊹ z 10 ⊛ z 160 ⊛ z 4546 ⊝ z 143 ⊛ z 4548 ⊝ z 160 ⊛ z 4550 ⊝ z
    164 ⊛ z 4552 ⊝ z 9 ⊛ z 143 ⊛ z 4550 ⊝ z 9 ⊛ z 160 ⊛ z 4548 ⊝ z 9 ⊛ z 164 ⊛ z 4546 ⊝ z 10 ⊛ z
    143 ⊛ z 4552 ⊝ z 10 ⊛ z 164 ⊛ z 4548) ⊝ mf ⊛ (z 141 ⊛ z 4543 ⊹ z 141 ⊛ z 4554 ⊹ z 155 ⊛ z 4543
    ⊹ z 155 ⊛ z 4554 ⊹ z 10 ⊛ z 149 ⊛ z 4546 ⊝ z 143 ⊛ z 4548 ⊝ z 149 ⊛ z 4556 ⊝ z 152 ⊛ z 4558 ⊝
    z 9 ⊛ z 143 ⊛ z 4556 ⊝ z 9 ⊛ z 149 ⊛ z 4548 ⊝ z 9 ⊛ z 152 ⊛ z 4546 ⊝ z 10 ⊛ z 143 ⊛ z 4558 ⊝ z
    10 ⊛ z 152 ⊛ z 4548)),
(4563, md ⊛ (z 1 ⊛ z 4523 ⊹ z 2 ⊛ z 4522) ⊹ mc ⊛ (z 123 ⊛ z 4540 ⊹ z 124 ⊛ z 4542 ⊹ z 125 ⊛ z
    4539) ⊹ mg ⊛ (z 183 ⊛ z 4530 ⊹ z 188 ⊛ z 4535 ⊹ z 193 ⊛ z 4538) ⊝ me ⊛ (z 10 ⊛ z 123 ⊛ z 4550
    ⊝ z 123 ⊛ z 4546 ⊝ z 124 ⊛ z 4548 ⊝ z 125 ⊛ z 4543 ⊝ z 125 ⊛ z 4545 ⊝ z 9 ⊛ z 123 ⊛ z 4552 ⊝ z
    9 ⊛ z 124 ⊛ z 4550 ⊝ z 10 ⊛ z 124 ⊛ z 4552) ⊝ mf ⊛ (z 10 ⊛ z 123 ⊛ z 4556 ⊝ z 123 ⊛ z 4546 ⊝ z
    124 ⊛ z 4548 ⊝ z 125 ⊛ z 4543 ⊝ z 125 ⊛ z 4554 ⊝ z 9 ⊛ z 123 ⊛ z 4558 ⊝ z 9 ⊛ z 124 ⊛ z 4556 ⊝
    z 10 ⊛ z 124 ⊛ z 4558)),
(4564, z 4559 ⊹ z 538 ⊛ z 4560 ⊹ z 544 ⊛ z 4561 ⊹ z 547 ⊛ z 4562 ⊝ z 541 ⊛ z 4563 ⊝ z 83 ⊛ z 549 ⊛
    (z 4494 ⊹ z 4495)),
(4565, z 1 ⊛ z 545 ⊛ (pow (z 3) 2 ⊹ pow (z 4) 2)),
(4566, z 2 ⊛ z 545 ⊛ (pow (z 3) 2 ⊹ pow (z 4) 2)),
(4567, z 4565 ⊛ u1 ⊹ z 4566 ⊛ u2 ⊹ z 542 ⊛ z 559 ⊹ z 545 ⊛ z 563 ⊝ z 3 ⊛ z 1327 ⊛ u4 ⊝ z 3 ⊛ z
    1329 ⊛ u3 ⊝ z 3 ⊛ z 1331 ⊛ u5 ⊝ z 539 ⊛ z 556),
(4568, z 545 ⊛ (z 1 ⊛ z 31 ⊝ z 2 ⊛ z 6)),
(4569, z 545 ⊛ (z 1 ⊛ z 41 ⊹ z 2 ⊛ z 5)),
(4570, z 9 ⊛ z 4569 ⊹ z 1 ⊛ z 3 ⊛ z 10 ⊛ z 545),
(4571, z 1 ⊛ z 3 ⊛ z 9 ⊛ z 545 ⊝ z 10 ⊛ z 4569),
(4572, z 23 ⊛ z 4570 ⊝ z 6 ⊛ z 4568 ⊝ z 25 ⊛ z 4571),
(4573, z 545 ⊛ (z 1 ⊛ z 6 ⊹ z 2 ⊛ z 31)),
(4574, z 545 ⊛ (z 1 ⊛ z 5 ⊝ z 2 ⊛ z 41)),
(4575, z 2 ⊛ z 3 ⊛ z 10 ⊛ z 545 ⊝ z 9 ⊛ z 4574),
(4576, z 10 ⊛ z 4574 ⊹ z 2 ⊛ z 3 ⊛ z 9 ⊛ z 545),
(4577, z 23 ⊛ z 4575 ⊝ z 6 ⊛ z 4573 ⊝ z 25 ⊛ z 4576),
(4578, z 11 ⊛ z 39 ⊛ z 90 ⊛ z 550 ⊹ z 11 ⊛ z 40 ⊛ z 94 ⊛ z 550 ⊹ z 12 ⊛ z 39 ⊛ z 94 ⊛ z 550 ⊹ z 12
    ⊛ z 40 ⊛ z 43 ⊛ z 4509 ⊝ z 11 ⊛ z 39 ⊛ z 43 ⊛ z 4509 ⊝ z 11 ⊛ z 40 ⊛ z 43 ⊛ z 4502 ⊝ z 12 ⊛ z
    39 ⊛ z 43 ⊛ z 4502 ⊝ z 12 ⊛ z 40 ⊛ z 90 ⊛ z 550),
(4579, z 12 ⊛ z 40 ⊛ z 4506 ⊹ z 11 ⊛ z 39 ⊛ z 92 ⊛ z 550 ⊹ z 11 ⊛ z 40 ⊛ z 97 ⊛ z 550 ⊹ z 12 ⊛ z
    39 ⊛ z 97 ⊛ z 550 ⊝ z 11 ⊛ z 39 ⊛ z 4506 ⊝ z 11 ⊛ z 40 ⊛ z 4499 ⊝ z 12 ⊛ z 39 ⊛ z 4499 ⊝ z 12
    ⊛ z 40 ⊛ z 92 ⊛ z 550),
(4580, z 12 ⊛ z 40 ⊛ z 4507 ⊹ z 11 ⊛ z 39 ⊛ z 91 ⊛ z 550 ⊹ z 11 ⊛ z 40 ⊛ z 95 ⊛ z 550 ⊹ z 12 ⊛ z
    39 ⊛ z 95 ⊛ z 550 ⊝ z 11 ⊛ z 39 ⊛ z 4507 ⊝ z 11 ⊛ z 40 ⊛ z 4500 ⊝ z 12 ⊛ z 39 ⊛ z 4500 ⊝ z 12
    ⊛ z 40 ⊛ z 91 ⊛ z 550),
(4581, z 12 ⊛ z 40 ⊛ z 4508 ⊹ z 11 ⊛ z 39 ⊛ z 93 ⊛ z 550 ⊹ z 11 ⊛ z 40 ⊛ z 96 ⊛ z 550 ⊹ z 12 ⊛ z
    39 ⊛ z 96 ⊛ z 550 ⊝ z 11 ⊛ z 39 ⊛ z 4508 ⊝ z 11 ⊛ z 40 ⊛ z 4501 ⊝ z 12 ⊛ z 39 ⊛ z 4501 ⊝ z 12
    ⊛ z 40 ⊛ z 93 ⊛ z 550),
(4582, z 4572 ⊛ u1 ⊹ z 4577 ⊛ u2 ⊹ z 542 ⊛ z 578 ⊝ z 25 ⊛ z 4578 ⊛ u3 ⊝ z 25 ⊛ z 4579 ⊛ u4 ⊝ z 25
    ⊛ z 4580 ⊛ u5 ⊝ z 25 ⊛ z 4581 ⊛ u7 ⊝ z 539 ⊛ z 573 ⊝ z 545 ⊛ z 616 ⊝ z 550 ⊛ z 586),
(4583, z 2 ⊛ z 545 ⊛ u1 ⊹ z 1 ⊛ z 542 ⊛ q3p ⊹ z 2 ⊛ z 539 ⊛ q3p ⊝ z 1 ⊛ z 545 ⊛ u2 ⊝ z 545 ⊛ z
    552),
(4584, z 27 ⊛ z 4570 ⊹ z 29 ⊛ z 4571 ⊹ z 31 ⊛ z 4568),
(4585, z 27 ⊛ z 4575 ⊹ z 29 ⊛ z 4576 ⊹ z 31 ⊛ z 4573)]

end BP.EL
