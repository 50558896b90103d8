import Verif.Gen.RollingEqs
import Verif.Gen.Dynamics

/-!
# Generated by tools/gen_dynamics.py
-/

namespace BP.EL

open E

/-- The equations of motion, before the rolling conditions are used. -/
def dynRow : E :=
  z 6011 ⊛ (z 909 ⊛ z 6001 ⊹ z 910 ⊛ z 6002 ⊹ z 911 ⊛ z 6005 ⊹ z 912 ⊛ z 6003 ⊹ z 887 ⊛ z 6004 ⊹ neg (z 899) ⊛ z 6007 ⊹ z 906 ⊛ z 6009 ⊹ z 913) ⊹
    z 6012 ⊛ (z 910 ⊛ z 6001 ⊹ z 914 ⊛ z 6002 ⊹ z 915 ⊛ z 6005 ⊹ z 916 ⊛ z 6003 ⊹ z 888 ⊛ z 6004 ⊹ z 900 ⊛ z 6007 ⊹ z 907 ⊛ z 6009 ⊹ z 917) ⊹
    z 6013 ⊛ (z 912 ⊛ z 6001 ⊹ z 916 ⊛ z 6002 ⊹ z 918 ⊛ z 6004 ⊹ z 919 ⊛ z 6003 ⊹ z 920 ⊛ z 6005 ⊹ z 921 ⊛ z 6006 ⊹ z 922 ⊛ z 6007 ⊹ z 923 ⊛ z 6008 ⊹ z 924 ⊛ z 6009 ⊹ z 925) ⊹
    z 6014 ⊛ (z 880 ⊛ z 6004 ⊹ z 881 ⊛ z 6003 ⊹ z 882 ⊛ z 6005 ⊹ z 883 ⊛ z 6006 ⊹ z 884 ⊛ z 6007 ⊹ z 885 ⊛ z 6008 ⊹ z 886 ⊛ z 6009 ⊹ z 887 ⊛ z 6001 ⊹ z 888 ⊛ z 6002 ⊹ z 889) ⊹
    z 6015 ⊛ (z 911 ⊛ z 6001 ⊹ z 915 ⊛ z 6002 ⊹ z 926 ⊛ z 6004 ⊹ z 927 ⊛ z 6003 ⊹ z 928 ⊛ z 6005 ⊹ z 929 ⊛ z 6006 ⊹ z 930 ⊛ z 6007 ⊹ z 931 ⊛ z 6008 ⊹ z 932 ⊛ z 6009 ⊹ z 933) ⊹
    z 6016 ⊛ (z 890 ⊛ z 6004 ⊹ z 891 ⊛ z 6005 ⊹ z 892 ⊛ z 6003 ⊹ z 893 ⊛ z 6006 ⊹ z 894) ⊹
    z 6017 ⊛ (z 895 ⊛ z 6005 ⊹ z 896 ⊛ z 6004 ⊹ z 897 ⊛ z 6007 ⊹ z 898 ⊛ z 6003 ⊹ neg (z 899) ⊛ z 6001 ⊹ z 900 ⊛ z 6002 ⊹ z 901) ⊹
    z 6018 ⊛ (z 934 ⊛ z 6005 ⊹ z 935 ⊛ z 6004 ⊹ z 936 ⊛ z 6003 ⊹ z 937 ⊛ z 6008 ⊹ z 938) ⊹
    z 6019 ⊛ (z 902 ⊛ z 6003 ⊹ z 903 ⊛ z 6005 ⊹ z 904 ⊛ z 6004 ⊹ z 905 ⊛ z 6009 ⊹ z 906 ⊛ z 6001 ⊹ z 907 ⊛ z 6002 ⊹ z 908)

theorem dynRow_val (m : ℕ → ℝ) : dynRow.val real m =
    m 6011 * (m 909 * m 6001 + m 910 * m 6002 + m 911 * m 6005 + m 912 * m 6003 + m 887 * m 6004 + -m 899 * m 6007 + m 906 * m 6009 + m 913) +
    m 6012 * (m 910 * m 6001 + m 914 * m 6002 + m 915 * m 6005 + m 916 * m 6003 + m 888 * m 6004 + m 900 * m 6007 + m 907 * m 6009 + m 917) +
    m 6013 * (m 912 * m 6001 + m 916 * m 6002 + m 918 * m 6004 + m 919 * m 6003 + m 920 * m 6005 + m 921 * m 6006 + m 922 * m 6007 + m 923 * m 6008 + m 924 * m 6009 + m 925) +
    m 6014 * (m 880 * m 6004 + m 881 * m 6003 + m 882 * m 6005 + m 883 * m 6006 + m 884 * m 6007 + m 885 * m 6008 + m 886 * m 6009 + m 887 * m 6001 + m 888 * m 6002 + m 889) +
    m 6015 * (m 911 * m 6001 + m 915 * m 6002 + m 926 * m 6004 + m 927 * m 6003 + m 928 * m 6005 + m 929 * m 6006 + m 930 * m 6007 + m 931 * m 6008 + m 932 * m 6009 + m 933) +
    m 6016 * (m 890 * m 6004 + m 891 * m 6005 + m 892 * m 6003 + m 893 * m 6006 + m 894) +
    m 6017 * (m 895 * m 6005 + m 896 * m 6004 + m 897 * m 6007 + m 898 * m 6003 + -m 899 * m 6001 + m 900 * m 6002 + m 901) +
    m 6018 * (m 934 * m 6005 + m 935 * m 6004 + m 936 * m 6003 + m 937 * m 6008 + m 938) +
    m 6019 * (m 902 * m 6003 + m 903 * m 6005 + m 904 * m 6004 + m 905 * m 6009 + m 906 * m 6001 + m 907 * m 6002 + m 908) := rfl

/-- Cells, and what they contain. -/
def dynRows : List (ℕ × E) :=
  [(553, z 1 ⊛ z 5087 ⊛ z 5089 ⊝ z 2 ⊛ z 5085 ⊛ z 5089),
   (568, neg (z 1 ⊛ z 5085 ⊛ z 5089) ⊝ z 2 ⊛ z 5087 ⊛ z 5089),
   (620, z 1 ⊛ z 5087 ⊛ z 5089 ⊹ z 3 ⊛ z 5 ⊛ z 40 ⊛ z 5040 ⊛ z 5089 ⊹ z 3 ⊛ z 5 ⊛ z 5040 ⊛ z 5050 ⊛ z 5089 ⊹ qt 2 ⊛ z 4 ⊛ z 5 ⊛ z 582 ⊛ z 5082 ⊛ z 5089 ⊹ z 4 ⊛ z 6 ⊛ z 10 ⊛ z 39 ⊛ z 5042 ⊛ z 5089 ⊹ z 4 ⊛ z 6 ⊛ z 10 ⊛ z 5042 ⊛ z 5051 ⊛ z 5089 ⊹ z 4 ⊛ z 10 ⊛ z 39 ⊛ z 5040 ⊛ z 5089 ⊹ z 4 ⊛ z 10 ⊛ z 5040 ⊛ z 5051 ⊛ z 5089 ⊹ qt 2 ⊛ z 5 ⊛ z 9 ⊛ z 582 ⊛ z 5082 ⊛ z 5096 ⊹ qt 2 ⊛ z 5 ⊛ z 582 ⊛ z 5082 ⊛ z 5092 ⊹ n 2 ⊛ z 6 ⊛ z 10 ⊛ z 39 ⊛ z 5042 ⊛ z 5092 ⊹ n 2 ⊛ z 6 ⊛ z 10 ⊛ z 5042 ⊛ z 5051 ⊛ z 5092 ⊝ z 2 ⊛ z 5085 ⊛ z 5089 ⊝ z 3 ⊛ z 6 ⊛ z 9 ⊛ z 39 ⊛ z 5040 ⊛ z 5089 ⊝ z 3 ⊛ z 6 ⊛ z 9 ⊛ z 5040 ⊛ z 5051 ⊛ z 5089 ⊝ z 3 ⊛ z 6 ⊛ z 5040 ⊛ z 5049 ⊛ z 5089 ⊝ z 3 ⊛ z 9 ⊛ z 39 ⊛ z 5042 ⊛ z 5089 ⊝ z 3 ⊛ z 9 ⊛ z 5042 ⊛ z 5051 ⊛ z 5089 ⊝ qt 2 ⊛ z 3 ⊛ z 10 ⊛ z 584 ⊛ z 5082 ⊛ z 5089 ⊝ z 3 ⊛ z 5040 ⊛ z 5083 ⊛ z 5089 ⊝ z 4 ⊛ z 5 ⊛ z 9 ⊛ z 39 ⊛ z 5089 ⊛ z 5092 ⊝ z 4 ⊛ z 5 ⊛ z 9 ⊛ z 5051 ⊛ z 5089 ⊛ z 5092 ⊝ z 4 ⊛ z 5 ⊛ z 5049 ⊛ z 5089 ⊛ z 5092 ⊝ qt 2 ⊛ z 4 ⊛ z 6 ⊛ z 9 ⊛ z 584 ⊛ z 5082 ⊛ z 5089 ⊝ z 4 ⊛ z 6 ⊛ z 40 ⊛ z 5089 ⊛ z 5092 ⊝ z 4 ⊛ z 6 ⊛ z 5050 ⊛ z 5089 ⊛ z 5092 ⊝ z 5 ⊛ z 9 ⊛ z 39 ⊛ z 5042 ⊛ z 5042 ⊝ z 5 ⊛ z 9 ⊛ z 39 ⊛ z 5092 ⊛ z 5092 ⊝ z 5 ⊛ z 9 ⊛ z 5042 ⊛ z 5042 ⊛ z 5051 ⊝ z 5 ⊛ z 9 ⊛ z 5051 ⊛ z 5092 ⊛ z 5092 ⊝ z 5 ⊛ z 10 ⊛ z 40 ⊛ z 5042 ⊛ z 5096 ⊝ qt 2 ⊛ z 5 ⊛ z 10 ⊛ z 584 ⊛ z 5042 ⊛ z 5082 ⊝ z 5 ⊛ z 39 ⊛ z 5092 ⊛ z 5096 ⊝ z 5 ⊛ z 5049 ⊛ z 5092 ⊛ z 5092 ⊝ z 6 ⊛ z 9 ⊛ z 40 ⊛ z 5092 ⊛ z 5096 ⊝ qt 2 ⊛ z 6 ⊛ z 9 ⊛ z 584 ⊛ z 5082 ⊛ z 5092 ⊝ z 6 ⊛ z 40 ⊛ z 5092 ⊛ z 5092 ⊝ qt 2 ⊛ z 6 ⊛ z 584 ⊛ z 5082 ⊛ z 5096 ⊝ z 6 ⊛ z 5050 ⊛ z 5092 ⊛ z 5092),
   (628, n 2 ⊛ z 3 ⊛ z 5 ⊛ z 9 ⊛ z 39 ⊛ z 5040 ⊛ z 5092 ⊹ n 2 ⊛ z 3 ⊛ z 5 ⊛ z 9 ⊛ z 5040 ⊛ z 5051 ⊛ z 5092 ⊹ z 3 ⊛ z 5 ⊛ z 39 ⊛ z 5040 ⊛ z 5096 ⊹ n 2 ⊛ z 3 ⊛ z 5 ⊛ z 5040 ⊛ z 5049 ⊛ z 5092 ⊹ z 3 ⊛ z 6 ⊛ z 9 ⊛ z 40 ⊛ z 5040 ⊛ z 5096 ⊹ qt 2 ⊛ z 3 ⊛ z 6 ⊛ z 9 ⊛ z 584 ⊛ z 5040 ⊛ z 5082 ⊹ n 2 ⊛ z 3 ⊛ z 6 ⊛ z 40 ⊛ z 5040 ⊛ z 5092 ⊹ n 2 ⊛ z 3 ⊛ z 6 ⊛ z 5040 ⊛ z 5050 ⊛ z 5092 ⊹ z 3 ⊛ z 9 ⊛ z 40 ⊛ z 5042 ⊛ z 5096 ⊹ qt 2 ⊛ z 3 ⊛ z 9 ⊛ z 584 ⊛ z 5042 ⊛ z 5082 ⊹ qt 2 ⊛ z 3 ⊛ z 10 ⊛ z 582 ⊛ z 5082 ⊛ z 5096 ⊹ z 4 ⊛ z 5 ⊛ z 9 ⊛ z 40 ⊛ z 5092 ⊛ z 5096 ⊹ qt 2 ⊛ z 4 ⊛ z 5 ⊛ z 9 ⊛ z 584 ⊛ z 5082 ⊛ z 5092 ⊹ z 4 ⊛ z 5 ⊛ z 40 ⊛ z 5040 ⊛ z 5040 ⊹ z 4 ⊛ z 5 ⊛ z 40 ⊛ z 5092 ⊛ z 5092 ⊹ qt 2 ⊛ z 4 ⊛ z 5 ⊛ z 584 ⊛ z 5082 ⊛ z 5096 ⊹ z 4 ⊛ z 5 ⊛ z 5040 ⊛ z 5040 ⊛ z 5050 ⊹ z 4 ⊛ z 5 ⊛ z 5050 ⊛ z 5092 ⊛ z 5092 ⊹ qt 2 ⊛ z 4 ⊛ z 6 ⊛ z 9 ⊛ z 582 ⊛ z 5082 ⊛ z 5096 ⊹ qt 2 ⊛ z 4 ⊛ z 6 ⊛ z 582 ⊛ z 5082 ⊛ z 5092 ⊹ qt 2 ⊛ z 5 ⊛ z 9 ⊛ z 584 ⊛ z 5082 ⊛ z 5089 ⊹ z 5 ⊛ z 40 ⊛ z 5089 ⊛ z 5092 ⊹ z 5 ⊛ z 5050 ⊛ z 5089 ⊛ z 5092 ⊹ qt 2 ⊛ z 6 ⊛ z 582 ⊛ z 5082 ⊛ z 5089 ⊝ z 1 ⊛ z 5085 ⊛ z 5089 ⊝ z 2 ⊛ z 5087 ⊛ z 5089 ⊝ qt 2 ⊛ z 3 ⊛ z 5 ⊛ z 582 ⊛ z 5040 ⊛ z 5082 ⊝ n 2 ⊛ z 3 ⊛ z 6 ⊛ z 10 ⊛ z 39 ⊛ z 5040 ⊛ z 5042 ⊝ n 2 ⊛ z 3 ⊛ z 6 ⊛ z 10 ⊛ z 5040 ⊛ z 5042 ⊛ z 5051 ⊝ z 3 ⊛ z 10 ⊛ z 39 ⊛ z 5040 ⊛ z 5040 ⊝ z 3 ⊛ z 10 ⊛ z 39 ⊛ z 5042 ⊛ z 5042 ⊝ z 3 ⊛ z 10 ⊛ z 5040 ⊛ z 5040 ⊛ z 5051 ⊝ z 3 ⊛ z 10 ⊛ z 5042 ⊛ z 5042 ⊛ z 5051 ⊝ n 2 ⊛ z 4 ⊛ z 5 ⊛ z 10 ⊛ z 39 ⊛ z 5042 ⊛ z 5092 ⊝ n 2 ⊛ z 4 ⊛ z 5 ⊛ z 10 ⊛ z 5042 ⊛ z 5051 ⊛ z 5092 ⊝ z 4 ⊛ z 6 ⊛ z 9 ⊛ z 39 ⊛ z 5040 ⊛ z 5040 ⊝ z 4 ⊛ z 6 ⊛ z 9 ⊛ z 39 ⊛ z 5042 ⊛ z 5042 ⊝ z 4 ⊛ z 6 ⊛ z 9 ⊛ z 39 ⊛ z 5092 ⊛ z 5092 ⊝ z 4 ⊛ z 6 ⊛ z 9 ⊛ z 5040 ⊛ z 5040 ⊛ z 5051 ⊝ z 4 ⊛ z 6 ⊛ z 9 ⊛ z 5042 ⊛ z 5042 ⊛ z 5051 ⊝ z 4 ⊛ z 6 ⊛ z 9 ⊛ z 5051 ⊛ z 5092 ⊛ z 5092 ⊝ z 4 ⊛ z 6 ⊛ z 10 ⊛ z 40 ⊛ z 5042 ⊛ z 5096 ⊝ qt 2 ⊛ z 4 ⊛ z 6 ⊛ z 10 ⊛ z 584 ⊛ z 5042 ⊛ z 5082 ⊝ z 4 ⊛ z 6 ⊛ z 39 ⊛ z 5092 ⊛ z 5096 ⊝ z 4 ⊛ z 6 ⊛ z 5040 ⊛ z 5040 ⊛ z 5049 ⊝ z 4 ⊛ z 6 ⊛ z 5049 ⊛ z 5092 ⊛ z 5092 ⊝ n 2 ⊛ z 4 ⊛ z 9 ⊛ z 39 ⊛ z 5040 ⊛ z 5042 ⊝ n 2 ⊛ z 4 ⊛ z 9 ⊛ z 5040 ⊛ z 5042 ⊛ z 5051 ⊝ z 4 ⊛ z 10 ⊛ z 40 ⊛ z 5040 ⊛ z 5096 ⊝ qt 2 ⊛ z 4 ⊛ z 10 ⊛ z 584 ⊛ z 5040 ⊛ z 5082 ⊝ z 4 ⊛ z 5040 ⊛ z 5040 ⊛ z 5083 ⊝ z 5 ⊛ z 10 ⊛ z 39 ⊛ z 5042 ⊛ z 5089 ⊝ z 5 ⊛ z 10 ⊛ z 5042 ⊛ z 5051 ⊛ z 5089 ⊝ z 6 ⊛ z 9 ⊛ z 39 ⊛ z 5089 ⊛ z 5092 ⊝ z 6 ⊛ z 9 ⊛ z 5051 ⊛ z 5089 ⊛ z 5092 ⊝ z 6 ⊛ z 5049 ⊛ z 5089 ⊛ z 5092),
   (664, n 2 ⊛ z 3 ⊛ z 5 ⊛ z 9 ⊛ z 453 ⊛ z 5040 ⊛ z 5092 ⊹ n 2 ⊛ z 3 ⊛ z 5 ⊛ z 10 ⊛ z 39 ⊛ z 5042 ⊛ z 5092 ⊹ n 2 ⊛ z 3 ⊛ z 5 ⊛ z 10 ⊛ z 5042 ⊛ z 5051 ⊛ z 5092 ⊹ z 3 ⊛ z 5 ⊛ z 634 ⊛ z 5040 ⊹ z 3 ⊛ z 6 ⊛ z 9 ⊛ z 39 ⊛ z 5040 ⊛ z 5040 ⊹ z 3 ⊛ z 6 ⊛ z 9 ⊛ z 39 ⊛ z 5042 ⊛ z 5042 ⊹ z 3 ⊛ z 6 ⊛ z 9 ⊛ z 39 ⊛ z 5092 ⊛ z 5092 ⊹ z 3 ⊛ z 6 ⊛ z 9 ⊛ z 639 ⊛ z 5040 ⊹ z 3 ⊛ z 6 ⊛ z 9 ⊛ z 5040 ⊛ z 5040 ⊛ z 5051 ⊹ z 3 ⊛ z 6 ⊛ z 9 ⊛ z 5042 ⊛ z 5042 ⊛ z 5051 ⊹ z 3 ⊛ z 6 ⊛ z 9 ⊛ z 5051 ⊛ z 5092 ⊛ z 5092 ⊹ qt 2 ⊛ z 3 ⊛ z 6 ⊛ z 10 ⊛ z 584 ⊛ z 5042 ⊛ z 5082 ⊹ z 3 ⊛ z 6 ⊛ z 5040 ⊛ z 5040 ⊛ z 5049 ⊹ z 3 ⊛ z 6 ⊛ z 5049 ⊛ z 5092 ⊛ z 5092 ⊹ n 2 ⊛ z 3 ⊛ z 9 ⊛ z 39 ⊛ z 5040 ⊛ z 5042 ⊹ z 3 ⊛ z 9 ⊛ z 639 ⊛ z 5042 ⊹ n 2 ⊛ z 3 ⊛ z 9 ⊛ z 5040 ⊛ z 5042 ⊛ z 5051 ⊹ qt 2 ⊛ z 3 ⊛ z 10 ⊛ z 584 ⊛ z 5040 ⊛ z 5082 ⊹ z 3 ⊛ z 5040 ⊛ z 5040 ⊛ z 5083 ⊹ n 2 ⊛ z 4 ⊛ z 5 ⊛ z 9 ⊛ z 39 ⊛ z 5040 ⊛ z 5092 ⊹ z 4 ⊛ z 5 ⊛ z 9 ⊛ z 639 ⊛ z 5092 ⊹ n 2 ⊛ z 4 ⊛ z 5 ⊛ z 9 ⊛ z 5040 ⊛ z 5051 ⊛ z 5092 ⊹ n 2 ⊛ z 4 ⊛ z 5 ⊛ z 5040 ⊛ z 5049 ⊛ z 5092 ⊹ qt 2 ⊛ z 4 ⊛ z 6 ⊛ z 9 ⊛ z 584 ⊛ z 5040 ⊛ z 5082 ⊹ z 4 ⊛ z 6 ⊛ z 10 ⊛ z 451 ⊛ z 5040 ⊛ z 5040 ⊹ z 4 ⊛ z 6 ⊛ z 10 ⊛ z 451 ⊛ z 5042 ⊛ z 5042 ⊹ z 4 ⊛ z 6 ⊛ z 10 ⊛ z 451 ⊛ z 5092 ⊛ z 5092 ⊹ n 2 ⊛ z 4 ⊛ z 6 ⊛ z 40 ⊛ z 5040 ⊛ z 5092 ⊹ n 2 ⊛ z 4 ⊛ z 6 ⊛ z 5040 ⊛ z 5050 ⊛ z 5092 ⊹ qt 2 ⊛ z 4 ⊛ z 9 ⊛ z 584 ⊛ z 5042 ⊛ z 5082 ⊹ n 2 ⊛ z 4 ⊛ z 10 ⊛ z 451 ⊛ z 5040 ⊛ z 5042 ⊹ z 5 ⊛ z 9 ⊛ z 661 ⊛ z 5042 ⊹ n 2 ⊛ z 6 ⊛ z 10 ⊛ z 454 ⊛ z 5042 ⊛ z 5092 ⊹ z 651 ⊛ z 5092 ⊝ qt 2 ⊛ z 3 ⊛ z 5 ⊛ z 9 ⊛ z 584 ⊛ z 5082 ⊛ z 5092 ⊝ n 2 ⊛ z 3 ⊛ z 5 ⊛ z 10 ⊛ z 451 ⊛ z 5040 ⊛ z 5092 ⊝ z 3 ⊛ z 5 ⊛ z 40 ⊛ z 5040 ⊛ z 5040 ⊝ z 3 ⊛ z 5 ⊛ z 40 ⊛ z 5092 ⊛ z 5092 ⊝ z 3 ⊛ z 5 ⊛ z 5040 ⊛ z 5040 ⊛ z 5050 ⊝ z 3 ⊛ z 5 ⊛ z 5050 ⊛ z 5092 ⊛ z 5092 ⊝ n 2 ⊛ z 3 ⊛ z 6 ⊛ z 9 ⊛ z 451 ⊛ z 5040 ⊛ z 5042 ⊝ n 2 ⊛ z 3 ⊛ z 6 ⊛ z 10 ⊛ z 453 ⊛ z 5040 ⊛ z 5042 ⊝ z 3 ⊛ z 6 ⊛ z 10 ⊛ z 644 ⊛ z 5040 ⊝ n 2 ⊛ z 3 ⊛ z 6 ⊛ z 455 ⊛ z 5040 ⊛ z 5092 ⊝ qt 2 ⊛ z 3 ⊛ z 6 ⊛ z 582 ⊛ z 5082 ⊛ z 5092 ⊝ z 3 ⊛ z 9 ⊛ z 451 ⊛ z 5040 ⊛ z 5040 ⊝ z 3 ⊛ z 9 ⊛ z 451 ⊛ z 5042 ⊛ z 5042 ⊝ z 3 ⊛ z 10 ⊛ z 453 ⊛ z 5040 ⊛ z 5040 ⊝ z 3 ⊛ z 10 ⊛ z 453 ⊛ z 5042 ⊛ z 5042 ⊝ z 3 ⊛ z 10 ⊛ z 644 ⊛ z 5042 ⊝ n 2 ⊛ z 4 ⊛ z 5 ⊛ z 9 ⊛ z 451 ⊛ z 5042 ⊛ z 5092 ⊝ n 2 ⊛ z 4 ⊛ z 5 ⊛ z 10 ⊛ z 453 ⊛ z 5042 ⊛ z 5092 ⊝ z 4 ⊛ z 5 ⊛ z 10 ⊛ z 644 ⊛ z 5092 ⊝ z 4 ⊛ z 5 ⊛ z 455 ⊛ z 5040 ⊛ z 5040 ⊝ z 4 ⊛ z 5 ⊛ z 455 ⊛ z 5092 ⊛ z 5092 ⊝ qt 2 ⊛ z 4 ⊛ z 5 ⊛ z 582 ⊛ z 5040 ⊛ z 5082 ⊝ z 4 ⊛ z 6 ⊛ z 9 ⊛ z 453 ⊛ z 5040 ⊛ z 5040 ⊝ z 4 ⊛ z 6 ⊛ z 9 ⊛ z 453 ⊛ z 5042 ⊛ z 5042 ⊝ z 4 ⊛ z 6 ⊛ z 9 ⊛ z 453 ⊛ z 5092 ⊛ z 5092 ⊝ z 4 ⊛ z 6 ⊛ z 9 ⊛ z 644 ⊛ z 5042 ⊝ n 2 ⊛ z 4 ⊛ z 6 ⊛ z 10 ⊛ z 39 ⊛ z 5040 ⊛ z 5042 ⊝ z 4 ⊛ z 6 ⊛ z 10 ⊛ z 639 ⊛ z 5042 ⊝ n 2 ⊛ z 4 ⊛ z 6 ⊛ z 10 ⊛ z 5040 ⊛ z 5042 ⊛ z 5051 ⊝ z 4 ⊛ z 6 ⊛ z 634 ⊛ z 5092 ⊝ n 2 ⊛ z 4 ⊛ z 9 ⊛ z 453 ⊛ z 5040 ⊛ z 5042 ⊝ z 4 ⊛ z 9 ⊛ z 644 ⊛ z 5040 ⊝ z 4 ⊛ z 10 ⊛ z 39 ⊛ z 5040 ⊛ z 5040 ⊝ z 4 ⊛ z 10 ⊛ z 39 ⊛ z 5042 ⊛ z 5042 ⊝ z 4 ⊛ z 10 ⊛ z 639 ⊛ z 5040 ⊝ z 4 ⊛ z 10 ⊛ z 5040 ⊛ z 5040 ⊛ z 5051 ⊝ z 4 ⊛ z 10 ⊛ z 5042 ⊛ z 5042 ⊛ z 5051 ⊝ z 5 ⊛ z 9 ⊛ z 454 ⊛ z 5042 ⊛ z 5042 ⊝ z 5 ⊛ z 9 ⊛ z 454 ⊛ z 5092 ⊛ z 5092 ⊝ z 5 ⊛ z 10 ⊛ z 452 ⊛ z 5042 ⊛ z 5042 ⊝ z 5 ⊛ z 10 ⊛ z 452 ⊛ z 5092 ⊛ z 5092 ⊝ z 5 ⊛ z 10 ⊛ z 656 ⊛ z 5042 ⊝ n 2 ⊛ z 6 ⊛ z 9 ⊛ z 452 ⊛ z 5042 ⊛ z 5092 ⊝ z 6 ⊛ z 9 ⊛ z 656 ⊛ z 5092 ⊝ z 6 ⊛ z 10 ⊛ z 661 ⊛ z 5092),
   (579, neg (z 3 ⊛ z 6 ⊛ z 5092) ⊝ z 4 ⊛ z 5 ⊛ z 5040),
   (580, z 3 ⊛ z 6 ⊛ z 10 ⊛ z 5042 ⊹ z 3 ⊛ z 10 ⊛ z 5040 ⊹ z 4 ⊛ z 6 ⊛ z 9 ⊛ z 5040 ⊹ z 4 ⊛ z 9 ⊛ z 5042 ⊝ z 3 ⊛ z 5 ⊛ z 9 ⊛ z 5092),
   (268, neg (z 3 ⊛ z 6 ⊛ z 5092) ⊝ z 4 ⊛ z 5 ⊛ z 5040),
   (308, z 3 ⊛ z 6 ⊛ z 10 ⊛ z 5042 ⊹ z 3 ⊛ z 10 ⊛ z 5040 ⊹ z 4 ⊛ z 6 ⊛ z 9 ⊛ z 5040 ⊹ z 4 ⊛ z 9 ⊛ z 5042 ⊝ z 3 ⊛ z 5 ⊛ z 9 ⊛ z 5092),
   (296, z 5 ⊛ z 9 ⊛ z 5042 ⊝ z 6 ⊛ z 10 ⊛ z 5092),
   (300, neg (z 3 ⊛ z 6 ⊛ z 10 ⊛ z 5040) ⊝ z 3 ⊛ z 10 ⊛ z 5042 ⊝ z 4 ⊛ z 5 ⊛ z 10 ⊛ z 5092 ⊝ z 4 ⊛ z 6 ⊛ z 9 ⊛ z 5042 ⊝ z 4 ⊛ z 9 ⊛ z 5040),
   (305, neg (z 5 ⊛ z 10 ⊛ z 5042) ⊝ z 6 ⊛ z 9 ⊛ z 5092),
   (310, z 3 ⊛ z 6 ⊛ z 9 ⊛ z 5040 ⊹ z 3 ⊛ z 9 ⊛ z 5042 ⊹ z 4 ⊛ z 5 ⊛ z 9 ⊛ z 5092 ⊝ z 4 ⊛ z 6 ⊛ z 10 ⊛ z 5042 ⊝ z 4 ⊛ z 10 ⊛ z 5040),
   (269, z 3 ⊛ z 5 ⊛ z 5040 ⊝ z 4 ⊛ z 6 ⊛ z 5092),
   (33, z 4 ⊛ z 10 ⊝ z 3 ⊛ z 6 ⊛ z 9),
   (34, z 3 ⊛ z 5),
   (28, z 4 ⊛ z 10 ⊝ z 3 ⊛ z 6 ⊛ z 9),
   (32, z 3 ⊛ z 5),
   (23, z 5 ⊛ z 9),
   (24, z 6 ⊛ z 9),
   (25, z 5 ⊛ z 10),
   (27, z 3 ⊛ z 10 ⊹ z 4 ⊛ z 6 ⊛ z 9),
   (29, z 3 ⊛ z 9 ⊝ z 4 ⊛ z 6 ⊛ z 10),
   (31, z 4 ⊛ z 5)]

/-- The same in numbers. -/
structure DynVals (m : ℕ → ℝ) : Prop where
  v553 : m 553 = m 1 * m 5087 * m 5089 - m 2 * m 5085 * m 5089
  v568 : m 568 = -(m 1 * m 5085 * m 5089) - m 2 * m 5087 * m 5089
  v620 : m 620 = m 1 * m 5087 * m 5089 + m 3 * m 5 * m 40 * m 5040 * m 5089 + m 3 * m 5 * m 5040 * m 5050 * m 5089 + ((2 : ℕ) : ℝ) / 4 * m 4 * m 5 * m 582 * m 5082 * m 5089 + m 4 * m 6 * m 10 * m 39 * m 5042 * m 5089 + m 4 * m 6 * m 10 * m 5042 * m 5051 * m 5089 + m 4 * m 10 * m 39 * m 5040 * m 5089 + m 4 * m 10 * m 5040 * m 5051 * m 5089 + ((2 : ℕ) : ℝ) / 4 * m 5 * m 9 * m 582 * m 5082 * m 5096 + ((2 : ℕ) : ℝ) / 4 * m 5 * m 582 * m 5082 * m 5092 + ((2 : ℕ) : ℝ) * m 6 * m 10 * m 39 * m 5042 * m 5092 + ((2 : ℕ) : ℝ) * m 6 * m 10 * m 5042 * m 5051 * m 5092 - m 2 * m 5085 * m 5089 - m 3 * m 6 * m 9 * m 39 * m 5040 * m 5089 - m 3 * m 6 * m 9 * m 5040 * m 5051 * m 5089 - m 3 * m 6 * m 5040 * m 5049 * m 5089 - m 3 * m 9 * m 39 * m 5042 * m 5089 - m 3 * m 9 * m 5042 * m 5051 * m 5089 - ((2 : ℕ) : ℝ) / 4 * m 3 * m 10 * m 584 * m 5082 * m 5089 - m 3 * m 5040 * m 5083 * m 5089 - m 4 * m 5 * m 9 * m 39 * m 5089 * m 5092 - m 4 * m 5 * m 9 * m 5051 * m 5089 * m 5092 - m 4 * m 5 * m 5049 * m 5089 * m 5092 - ((2 : ℕ) : ℝ) / 4 * m 4 * m 6 * m 9 * m 584 * m 5082 * m 5089 - m 4 * m 6 * m 40 * m 5089 * m 5092 - m 4 * m 6 * m 5050 * m 5089 * m 5092 - m 5 * m 9 * m 39 * m 5042 * m 5042 - m 5 * m 9 * m 39 * m 5092 * m 5092 - m 5 * m 9 * m 5042 * m 5042 * m 5051 - m 5 * m 9 * m 5051 * m 5092 * m 5092 - m 5 * m 10 * m 40 * m 5042 * m 5096 - ((2 : ℕ) : ℝ) / 4 * m 5 * m 10 * m 584 * m 5042 * m 5082 - m 5 * m 39 * m 5092 * m 5096 - m 5 * m 5049 * m 5092 * m 5092 - m 6 * m 9 * m 40 * m 5092 * m 5096 - ((2 : ℕ) : ℝ) / 4 * m 6 * m 9 * m 584 * m 5082 * m 5092 - m 6 * m 40 * m 5092 * m 5092 - ((2 : ℕ) : ℝ) / 4 * m 6 * m 584 * m 5082 * m 5096 - m 6 * m 5050 * m 5092 * m 5092
  v628 : m 628 = ((2 : ℕ) : ℝ) * m 3 * m 5 * m 9 * m 39 * m 5040 * m 5092 + ((2 : ℕ) : ℝ) * m 3 * m 5 * m 9 * m 5040 * m 5051 * m 5092 + m 3 * m 5 * m 39 * m 5040 * m 5096 + ((2 : ℕ) : ℝ) * m 3 * m 5 * m 5040 * m 5049 * m 5092 + m 3 * m 6 * m 9 * m 40 * m 5040 * m 5096 + ((2 : ℕ) : ℝ) / 4 * m 3 * m 6 * m 9 * m 584 * m 5040 * m 5082 + ((2 : ℕ) : ℝ) * m 3 * m 6 * m 40 * m 5040 * m 5092 + ((2 : ℕ) : ℝ) * m 3 * m 6 * m 5040 * m 5050 * m 5092 + m 3 * m 9 * m 40 * m 5042 * m 5096 + ((2 : ℕ) : ℝ) / 4 * m 3 * m 9 * m 584 * m 5042 * m 5082 + ((2 : ℕ) : ℝ) / 4 * m 3 * m 10 * m 582 * m 5082 * m 5096 + m 4 * m 5 * m 9 * m 40 * m 5092 * m 5096 + ((2 : ℕ) : ℝ) / 4 * m 4 * m 5 * m 9 * m 584 * m 5082 * m 5092 + m 4 * m 5 * m 40 * m 5040 * m 5040 + m 4 * m 5 * m 40 * m 5092 * m 5092 + ((2 : ℕ) : ℝ) / 4 * m 4 * m 5 * m 584 * m 5082 * m 5096 + m 4 * m 5 * m 5040 * m 5040 * m 5050 + m 4 * m 5 * m 5050 * m 5092 * m 5092 + ((2 : ℕ) : ℝ) / 4 * m 4 * m 6 * m 9 * m 582 * m 5082 * m 5096 + ((2 : ℕ) : ℝ) / 4 * m 4 * m 6 * m 582 * m 5082 * m 5092 + ((2 : ℕ) : ℝ) / 4 * m 5 * m 9 * m 584 * m 5082 * m 5089 + m 5 * m 40 * m 5089 * m 5092 + m 5 * m 5050 * m 5089 * m 5092 + ((2 : ℕ) : ℝ) / 4 * m 6 * m 582 * m 5082 * m 5089 - m 1 * m 5085 * m 5089 - m 2 * m 5087 * m 5089 - ((2 : ℕ) : ℝ) / 4 * m 3 * m 5 * m 582 * m 5040 * m 5082 - ((2 : ℕ) : ℝ) * m 3 * m 6 * m 10 * m 39 * m 5040 * m 5042 - ((2 : ℕ) : ℝ) * m 3 * m 6 * m 10 * m 5040 * m 5042 * m 5051 - m 3 * m 10 * m 39 * m 5040 * m 5040 - m 3 * m 10 * m 39 * m 5042 * m 5042 - m 3 * m 10 * m 5040 * m 5040 * m 5051 - m 3 * m 10 * m 5042 * m 5042 * m 5051 - ((2 : ℕ) : ℝ) * m 4 * m 5 * m 10 * m 39 * m 5042 * m 5092 - ((2 : ℕ) : ℝ) * m 4 * m 5 * m 10 * m 5042 * m 5051 * m 5092 - m 4 * m 6 * m 9 * m 39 * m 5040 * m 5040 - m 4 * m 6 * m 9 * m 39 * m 5042 * m 5042 - m 4 * m 6 * m 9 * m 39 * m 5092 * m 5092 - m 4 * m 6 * m 9 * m 5040 * m 5040 * m 5051 - m 4 * m 6 * m 9 * m 5042 * m 5042 * m 5051 - m 4 * m 6 * m 9 * m 5051 * m 5092 * m 5092 - m 4 * m 6 * m 10 * m 40 * m 5042 * m 5096 - ((2 : ℕ) : ℝ) / 4 * m 4 * m 6 * m 10 * m 584 * m 5042 * m 5082 - m 4 * m 6 * m 39 * m 5092 * m 5096 - m 4 * m 6 * m 5040 * m 5040 * m 5049 - m 4 * m 6 * m 5049 * m 5092 * m 5092 - ((2 : ℕ) : ℝ) * m 4 * m 9 * m 39 * m 5040 * m 5042 - ((2 : ℕ) : ℝ) * m 4 * m 9 * m 5040 * m 5042 * m 5051 - m 4 * m 10 * m 40 * m 5040 * m 5096 - ((2 : ℕ) : ℝ) / 4 * m 4 * m 10 * m 584 * m 5040 * m 5082 - m 4 * m 5040 * m 5040 * m 5083 - m 5 * m 10 * m 39 * m 5042 * m 5089 - m 5 * m 10 * m 5042 * m 5051 * m 5089 - m 6 * m 9 * m 39 * m 5089 * m 5092 - m 6 * m 9 * m 5051 * m 5089 * m 5092 - m 6 * m 5049 * m 5089 * m 5092
  v664 : m 664 = ((2 : ℕ) : ℝ) * m 3 * m 5 * m 9 * m 453 * m 5040 * m 5092 + ((2 : ℕ) : ℝ) * m 3 * m 5 * m 10 * m 39 * m 5042 * m 5092 + ((2 : ℕ) : ℝ) * m 3 * m 5 * m 10 * m 5042 * m 5051 * m 5092 + m 3 * m 5 * m 634 * m 5040 + m 3 * m 6 * m 9 * m 39 * m 5040 * m 5040 + m 3 * m 6 * m 9 * m 39 * m 5042 * m 5042 + m 3 * m 6 * m 9 * m 39 * m 5092 * m 5092 + m 3 * m 6 * m 9 * m 639 * m 5040 + m 3 * m 6 * m 9 * m 5040 * m 5040 * m 5051 + m 3 * m 6 * m 9 * m 5042 * m 5042 * m 5051 + m 3 * m 6 * m 9 * m 5051 * m 5092 * m 5092 + ((2 : ℕ) : ℝ) / 4 * m 3 * m 6 * m 10 * m 584 * m 5042 * m 5082 + m 3 * m 6 * m 5040 * m 5040 * m 5049 + m 3 * m 6 * m 5049 * m 5092 * m 5092 + ((2 : ℕ) : ℝ) * m 3 * m 9 * m 39 * m 5040 * m 5042 + m 3 * m 9 * m 639 * m 5042 + ((2 : ℕ) : ℝ) * m 3 * m 9 * m 5040 * m 5042 * m 5051 + ((2 : ℕ) : ℝ) / 4 * m 3 * m 10 * m 584 * m 5040 * m 5082 + m 3 * m 5040 * m 5040 * m 5083 + ((2 : ℕ) : ℝ) * m 4 * m 5 * m 9 * m 39 * m 5040 * m 5092 + m 4 * m 5 * m 9 * m 639 * m 5092 + ((2 : ℕ) : ℝ) * m 4 * m 5 * m 9 * m 5040 * m 5051 * m 5092 + ((2 : ℕ) : ℝ) * m 4 * m 5 * m 5040 * m 5049 * m 5092 + ((2 : ℕ) : ℝ) / 4 * m 4 * m 6 * m 9 * m 584 * m 5040 * m 5082 + m 4 * m 6 * m 10 * m 451 * m 5040 * m 5040 + m 4 * m 6 * m 10 * m 451 * m 5042 * m 5042 + m 4 * m 6 * m 10 * m 451 * m 5092 * m 5092 + ((2 : ℕ) : ℝ) * m 4 * m 6 * m 40 * m 5040 * m 5092 + ((2 : ℕ) : ℝ) * m 4 * m 6 * m 5040 * m 5050 * m 5092 + ((2 : ℕ) : ℝ) / 4 * m 4 * m 9 * m 584 * m 5042 * m 5082 + ((2 : ℕ) : ℝ) * m 4 * m 10 * m 451 * m 5040 * m 5042 + m 5 * m 9 * m 661 * m 5042 + ((2 : ℕ) : ℝ) * m 6 * m 10 * m 454 * m 5042 * m 5092 + m 651 * m 5092 - ((2 : ℕ) : ℝ) / 4 * m 3 * m 5 * m 9 * m 584 * m 5082 * m 5092 - ((2 : ℕ) : ℝ) * m 3 * m 5 * m 10 * m 451 * m 5040 * m 5092 - m 3 * m 5 * m 40 * m 5040 * m 5040 - m 3 * m 5 * m 40 * m 5092 * m 5092 - m 3 * m 5 * m 5040 * m 5040 * m 5050 - m 3 * m 5 * m 5050 * m 5092 * m 5092 - ((2 : ℕ) : ℝ) * m 3 * m 6 * m 9 * m 451 * m 5040 * m 5042 - ((2 : ℕ) : ℝ) * m 3 * m 6 * m 10 * m 453 * m 5040 * m 5042 - m 3 * m 6 * m 10 * m 644 * m 5040 - ((2 : ℕ) : ℝ) * m 3 * m 6 * m 455 * m 5040 * m 5092 - ((2 : ℕ) : ℝ) / 4 * m 3 * m 6 * m 582 * m 5082 * m 5092 - m 3 * m 9 * m 451 * m 5040 * m 5040 - m 3 * m 9 * m 451 * m 5042 * m 5042 - m 3 * m 10 * m 453 * m 5040 * m 5040 - m 3 * m 10 * m 453 * m 5042 * m 5042 - m 3 * m 10 * m 644 * m 5042 - ((2 : ℕ) : ℝ) * m 4 * m 5 * m 9 * m 451 * m 5042 * m 5092 - ((2 : ℕ) : ℝ) * m 4 * m 5 * m 10 * m 453 * m 5042 * m 5092 - m 4 * m 5 * m 10 * m 644 * m 5092 - m 4 * m 5 * m 455 * m 5040 * m 5040 - m 4 * m 5 * m 455 * m 5092 * m 5092 - ((2 : ℕ) : ℝ) / 4 * m 4 * m 5 * m 582 * m 5040 * m 5082 - m 4 * m 6 * m 9 * m 453 * m 5040 * m 5040 - m 4 * m 6 * m 9 * m 453 * m 5042 * m 5042 - m 4 * m 6 * m 9 * m 453 * m 5092 * m 5092 - m 4 * m 6 * m 9 * m 644 * m 5042 - ((2 : ℕ) : ℝ) * m 4 * m 6 * m 10 * m 39 * m 5040 * m 5042 - m 4 * m 6 * m 10 * m 639 * m 5042 - ((2 : ℕ) : ℝ) * m 4 * m 6 * m 10 * m 5040 * m 5042 * m 5051 - m 4 * m 6 * m 634 * m 5092 - ((2 : ℕ) : ℝ) * m 4 * m 9 * m 453 * m 5040 * m 5042 - m 4 * m 9 * m 644 * m 5040 - m 4 * m 10 * m 39 * m 5040 * m 5040 - m 4 * m 10 * m 39 * m 5042 * m 5042 - m 4 * m 10 * m 639 * m 5040 - m 4 * m 10 * m 5040 * m 5040 * m 5051 - m 4 * m 10 * m 5042 * m 5042 * m 5051 - m 5 * m 9 * m 454 * m 5042 * m 5042 - m 5 * m 9 * m 454 * m 5092 * m 5092 - m 5 * m 10 * m 452 * m 5042 * m 5042 - m 5 * m 10 * m 452 * m 5092 * m 5092 - m 5 * m 10 * m 656 * m 5042 - ((2 : ℕ) : ℝ) * m 6 * m 9 * m 452 * m 5042 * m 5092 - m 6 * m 9 * m 656 * m 5092 - m 6 * m 10 * m 661 * m 5092
  v579 : m 579 = -(m 3 * m 6 * m 5092) - m 4 * m 5 * m 5040
  v580 : m 580 = m 3 * m 6 * m 10 * m 5042 + m 3 * m 10 * m 5040 + m 4 * m 6 * m 9 * m 5040 + m 4 * m 9 * m 5042 - m 3 * m 5 * m 9 * m 5092
  v268 : m 268 = -(m 3 * m 6 * m 5092) - m 4 * m 5 * m 5040
  v308 : m 308 = m 3 * m 6 * m 10 * m 5042 + m 3 * m 10 * m 5040 + m 4 * m 6 * m 9 * m 5040 + m 4 * m 9 * m 5042 - m 3 * m 5 * m 9 * m 5092
  v296 : m 296 = m 5 * m 9 * m 5042 - m 6 * m 10 * m 5092
  v300 : m 300 = -(m 3 * m 6 * m 10 * m 5040) - m 3 * m 10 * m 5042 - m 4 * m 5 * m 10 * m 5092 - m 4 * m 6 * m 9 * m 5042 - m 4 * m 9 * m 5040
  v305 : m 305 = -(m 5 * m 10 * m 5042) - m 6 * m 9 * m 5092
  v310 : m 310 = m 3 * m 6 * m 9 * m 5040 + m 3 * m 9 * m 5042 + m 4 * m 5 * m 9 * m 5092 - m 4 * m 6 * m 10 * m 5042 - m 4 * m 10 * m 5040
  v269 : m 269 = m 3 * m 5 * m 5040 - m 4 * m 6 * m 5092
  v33 : m 33 = m 4 * m 10 - m 3 * m 6 * m 9
  v34 : m 34 = m 3 * m 5
  v28 : m 28 = m 4 * m 10 - m 3 * m 6 * m 9
  v32 : m 32 = m 3 * m 5
  v23 : m 23 = m 5 * m 9
  v24 : m 24 = m 6 * m 9
  v25 : m 25 = m 5 * m 10
  v27 : m 27 = m 3 * m 10 + m 4 * m 6 * m 9
  v29 : m 29 = m 3 * m 9 - m 4 * m 6 * m 10
  v31 : m 31 = m 4 * m 5

/-- Equations between cells. -/
structure DynEqs (m : ℕ → ℝ) : Prop where
  e983 : m 983 = m 543 * m 907 + m 548 * m 903 - m 540 * m 906 - m 546 * m 902
  e956 : m 956 = m 893 - m 545 * m 921
  e958 : m 958 = m 542 * m 914 - m 539 * m 910 - m 545 * m 916
  e957 : m 957 = m 542 * m 910 - m 539 * m 909 - m 545 * m 912
  e955 : m 955 = m 892 + m 542 * m 916 - m 539 * m 912 - m 545 * m 919 - m 550 * m 936
  e961 : m 961 = -m 545 * m 923 - m 550 * m 937
  e964 : m 964 = m 956 + m 542 * m 958 - m 539 * m 957 - m 545 * m 955 - m 550 * m 961
  e973 : m 973 = m 543 * m 907 + m 548 * m 932 - m 540 * m 906 - m 546 * m 924
  e960 : m 960 = m 542 * m 907 - m 539 * m 906 - m 545 * m 924
  e974 : m 974 = m 548 * m 929 - m 546 * m 921
  e972 : m 972 = m 900 + m 543 * m 914 + m 548 * m 915 - m 540 * m 910 - m 546 * m 916
  e971 : m 971 = m 543 * m 910 + m 548 * m 911 - m 899 - m 540 * m 909 - m 546 * m 912
  e970 : m 970 = m 898 + m 543 * m 916 + m 548 * m 927 + m 551 * m 936 - m 540 * m 912 - m 546 * m 919
  e975 : m 975 = m 548 * m 931 + m 551 * m 937 - m 546 * m 923
  e978 : m 978 = m 974 + m 542 * m 972 - m 539 * m 971 - m 545 * m 970 - m 550 * m 975
  e1003 : m 1003 = m 964 * m 973 - m 960 * m 978
  e969 : m 969 = m 897 + m 540 * m 899 + m 543 * m 900 + m 548 * m 930 - m 546 * m 922
  e967 : m 967 = m 895 + m 543 * m 915 + m 548 * m 928 + m 551 * m 934 - m 540 * m 911 - m 546 * m 920
  e979 : m 979 = m 969 + m 543 * m 972 + m 548 * m 967 + m 551 * m 975 - m 540 * m 971 - m 546 * m 970
  e959 : m 959 = m 539 * m 899 + m 542 * m 900 - m 545 * m 922
  e954 : m 954 = m 891 + m 542 * m 915 - m 539 * m 911 - m 545 * m 920 - m 550 * m 934
  e965 : m 965 = m 959 + m 543 * m 958 + m 548 * m 954 + m 551 * m 961 - m 540 * m 957 - m 546 * m 955
  e1002 : m 1002 = m 964 * m 979 - m 965 * m 978
  e982 : m 982 = m 542 * m 907 - m 539 * m 906 - m 545 * m 902
  e1004 : m 1004 = m 965 * m 973 - m 960 * m 979
  e1005 : m 1005 = m 983 * m 1003 - m 905 * m 1002 - m 982 * m 1004
  e948 : m 948 = m 889 + m 538 * m 913 + m 544 * m 925 + m 547 * m 933 + m 549 * m 938 - m 541 * m 917
  e940 : m 940 = m 881 + m 538 * m 912 + m 544 * m 919 + m 547 * m 927 + m 549 * m 936 - m 541 * m 916
  e581 : m 581 = ((2 : ℕ) : ℝ) * m 33 * m 580 + ((2 : ℕ) : ℝ) * m 34 * m 579
  e584 : m 584 = (((2 : ℕ) : ℝ) * m 36 * m 580 - m 33 * m 581 / √(m 35) ^ 1) / m 36 ^ 2
  e582 : m 582 = (((2 : ℕ) : ℝ) * m 36 * m 579 - m 34 * m 581 / √(m 35) ^ 1) / m 36 ^ 2
  e630 : m 630 = m 25 * m 580 + m 33 * m 296
  e631 : m 631 = (((2 : ℕ) : ℝ) * m 35 * m 630 - m 416 * m 581) / √(m 35) ^ 3
  e632 : m 632 = ((m 25 * m 36 - ((2 : ℕ) : ℝ) * m 33 * m 420) * m 581 / √(m 35) ^ 1 - m 36 * (((2 : ℕ) : ℝ) * m 36 * m 296 - ((2 : ℕ) : ℝ) * m 420 * m 580 - m 33 * m 631)) / m 36 ^ 3
  e633 : m 633 = (m 34 * m 36 * m 631 + ((2 : ℕ) : ℝ) * m 36 * m 420 * m 579 - ((2 : ℕ) : ℝ) * m 34 * m 420 * m 581 / √(m 35) ^ 1) / m 36 ^ 3
  e634 : m 634 = m 443 * m 308 - m 434 * m 268 - ((2 : ℕ) : ℝ) / 4 * m 5082 * m 28 * m 632 - ((2 : ℕ) : ℝ) / 4 * m 5082 * m 32 * m 633
  e635 : m 635 = m 25 * m 579 + m 34 * m 296
  e636 : m 636 = (((2 : ℕ) : ℝ) * m 35 * m 635 - m 412 * m 581) / √(m 35) ^ 3
  e638 : m 638 = (m 33 * m 36 * m 636 + ((2 : ℕ) : ℝ) * m 36 * m 418 * m 580 - ((2 : ℕ) : ℝ) * m 33 * m 418 * m 581 / √(m 35) ^ 1) / m 36 ^ 3
  e637 : m 637 = ((m 25 * m 36 - ((2 : ℕ) : ℝ) * m 34 * m 418) * m 581 / √(m 35) ^ 1 - m 36 * (((2 : ℕ) : ℝ) * m 36 * m 296 - ((2 : ℕ) : ℝ) * m 418 * m 579 - m 34 * m 636)) / m 36 ^ 3
  e639 : m 639 = m 432 * m 268 - m 444 * m 308 - ((2 : ℕ) : ℝ) / 4 * m 5082 * m 28 * m 638 - ((2 : ℕ) : ℝ) / 4 * m 5082 * m 32 * m 637
  e640 : m 640 = ((2 : ℕ) : ℝ) * m 23 * m 579 + ((2 : ℕ) : ℝ) * m 34 * m 305 - ((2 : ℕ) : ℝ) * m 5 * m 33 * m 5093 - ((2 : ℕ) : ℝ) * m 6 * m 580
  e641 : m 641 = (((2 : ℕ) : ℝ) * m 35 * m 640 - m 411 * m 581) / √(m 35) ^ 3
  e643 : m 643 = (((2 : ℕ) : ℝ) * m 33 * m 421 * m 581 / √(m 35) ^ 1 - m 36 * (((4 : ℕ) : ℝ) * m 5 * m 36 * m 5093 + m 33 * m 641 + ((2 : ℕ) : ℝ) * m 421 * m 580 - ((2 : ℕ) : ℝ) * m 6 * m 581 / √(m 35) ^ 1)) / m 36 ^ 3
  e642 : m 642 = (((2 : ℕ) : ℝ) * (m 23 * m 36 - m 34 * m 421) * m 581 / √(m 35) ^ 1 - m 36 * (((4 : ℕ) : ℝ) * m 36 * m 305 - ((2 : ℕ) : ℝ) * m 421 * m 579 - m 34 * m 641)) / m 36 ^ 3
  e644 : m 644 = ((2 : ℕ) : ℝ) / 4 * m 430 * m 268 + ((1 : ℕ) : ℝ) / 4 * m 5082 * m 28 * m 643 - ((2 : ℕ) : ℝ) / 4 * m 446 * m 308 - ((1 : ℕ) : ℝ) / 4 * m 5082 * m 32 * m 642
  e646 : m 646 = m 5 * m 300 - m 6 * m 29 * m 5093
  e647 : m 647 = m 33 * m 646 + m 410 * m 580
  e648 : m 648 = (((2 : ℕ) : ℝ) * m 35 * m 647 - m 415 * m 581) / √(m 35) ^ 3
  e650 : m 650 = (m 34 * m 36 * m 648 + ((2 : ℕ) : ℝ) * m 36 * m 417 * m 579 - ((2 : ℕ) : ℝ) * m 34 * m 417 * m 581 / √(m 35) ^ 1) / m 36 ^ 3
  e649 : m 649 = (((2 : ℕ) : ℝ) * m 33 * m 417 * m 581 / √(m 35) ^ 1 + m 36 * (((2 : ℕ) : ℝ) * m 36 * m 646 - ((2 : ℕ) : ℝ) * m 417 * m 580 - m 33 * m 648 - m 410 * m 581 / √(m 35) ^ 1)) / m 36 ^ 3
  e651 : m 651 = m 429 * m 268 + m 441 * m 308 + ((2 : ℕ) : ℝ) / 4 * m 5082 * m 32 * m 650 - ((2 : ℕ) : ℝ) / 4 * m 5082 * m 28 * m 649
  e652 : m 652 = m 29 * m 579 + m 34 * m 300
  e653 : m 653 = (((2 : ℕ) : ℝ) * m 35 * m 652 - m 414 * m 581) / √(m 35) ^ 3
  e655 : m 655 = (m 33 * m 36 * m 653 + ((2 : ℕ) : ℝ) * m 36 * m 419 * m 580 - ((2 : ℕ) : ℝ) * m 33 * m 419 * m 581 / √(m 35) ^ 1) / m 36 ^ 3
  e654 : m 654 = ((m 29 * m 36 - ((2 : ℕ) : ℝ) * m 34 * m 419) * m 581 / √(m 35) ^ 1 - m 36 * (((2 : ℕ) : ℝ) * m 36 * m 300 - ((2 : ℕ) : ℝ) * m 419 * m 579 - m 34 * m 653)) / m 36 ^ 3
  e656 : m 656 = m 433 * m 268 - m 445 * m 308 - ((2 : ℕ) : ℝ) / 4 * m 5082 * m 28 * m 655 - ((2 : ℕ) : ℝ) / 4 * m 5082 * m 32 * m 654
  e657 : m 657 = ((2 : ℕ) : ℝ) * m 27 * m 579 + ((2 : ℕ) : ℝ) * m 31 * m 580 + ((2 : ℕ) : ℝ) * m 33 * m 269 + ((2 : ℕ) : ℝ) * m 34 * m 310
  e658 : m 658 = (((2 : ℕ) : ℝ) * m 35 * m 657 - m 413 * m 581) / √(m 35) ^ 3
  e659 : m 659 = (((2 : ℕ) : ℝ) * (m 31 * m 36 - m 33 * m 422) * m 581 / √(m 35) ^ 1 - m 36 * (((4 : ℕ) : ℝ) * m 36 * m 269 - ((2 : ℕ) : ℝ) * m 422 * m 580 - m 33 * m 658)) / m 36 ^ 3
  e660 : m 660 = (((2 : ℕ) : ℝ) * (m 27 * m 36 - m 34 * m 422) * m 581 / √(m 35) ^ 1 - m 36 * (((4 : ℕ) : ℝ) * m 36 * m 310 - ((2 : ℕ) : ℝ) * m 422 * m 579 - m 34 * m 658)) / m 36 ^ 3
  e661 : m 661 = ((2 : ℕ) : ℝ) / 4 * m 431 * m 268 + ((2 : ℕ) : ℝ) / 4 * m 442 * m 308 - ((1 : ℕ) : ℝ) / 4 * m 5082 * m 28 * m 659 - ((1 : ℕ) : ℝ) / 4 * m 5082 * m 32 * m 660
  e667 : m 667 = (m 525 * m 568 + m 478 * m 496 * m 620 - m 511 * m 553 - m 535 * m 664 - m 478 * m 528 * m 628) / m 494
  e941 : m 941 = m 882 + m 538 * m 911 + m 544 * m 920 + m 547 * m 928 + m 549 * m 934 - m 541 * m 915
  e668 : m 668 = m 536 * m 664 / m 494
  e944 : m 944 = m 885 + m 544 * m 923 + m 547 * m 931 + m 549 * m 937
  e669 : m 669 = (m 526 * m 568 + m 532 * m 628 - m 512 * m 553 - m 527 * m 620 - m 537 * m 664) / m 494
  e946 : m 946 = m 887 + m 538 * m 909 + m 544 * m 912 + m 547 * m 911 - m 541 * m 910
  e665 : m 665 = (m 519 * m 568 + m 487 * m 496 * m 620 - m 504 * m 553 - m 533 * m 664 - m 487 * m 528 * m 628) / m 494
  e947 : m 947 = m 888 + m 538 * m 910 + m 544 * m 916 + m 547 * m 915 - m 541 * m 914
  e666 : m 666 = (m 523 * m 568 + m 482 * m 496 * m 620 - m 509 * m 553 - m 534 * m 664 - m 482 * m 528 * m 628) / m 494
  e952 : m 952 = m 948 + m 940 * m 667 + m 941 * m 668 + m 944 * m 669 + m 946 * m 665 - m 947 * m 666
  e953 : m 953 = m 890 + m 542 * m 888 - m 539 * m 887 - m 545 * m 918 - m 550 * m 935
  e963 : m 963 = m 953 + m 538 * m 957 + m 544 * m 955 + m 547 * m 954 + m 549 * m 961 - m 541 * m 958
  e968 : m 968 = m 896 + m 543 * m 888 + m 548 * m 926 + m 551 * m 935 - m 540 * m 887 - m 546 * m 918
  e977 : m 977 = m 968 + m 538 * m 971 + m 544 * m 970 + m 547 * m 967 + m 549 * m 975 - m 541 * m 972
  e1007 : m 1007 = m 963 * m 973 - m 960 * m 977
  e1006 : m 1006 = m 963 * m 979 - m 965 * m 977
  e981 : m 981 = m 904 + m 538 * m 906 + m 544 * m 902 + m 547 * m 903 - m 541 * m 907
  e1008 : m 1008 = m 983 * m 1007 - m 905 * m 1006 - m 981 * m 1004
  e1009 : m 1009 = m 963 * m 978 - m 964 * m 977
  e1010 : m 1010 = m 982 * m 1007 - m 905 * m 1009 - m 981 * m 1003
  e1011 : m 1011 = m 982 * m 1006 - m 981 * m 1002 - m 983 * m 1009
  e939 : m 939 = m 880 + m 538 * m 887 + m 544 * m 918 + m 547 * m 926 + m 549 * m 935 - m 541 * m 888
  e942 : m 942 = m 883 + m 544 * m 921 + m 547 * m 929
  e943 : m 943 = m 884 + m 544 * m 922 + m 547 * m 930 - m 538 * m 899 - m 541 * m 900
  e945 : m 945 = m 886 + m 538 * m 906 + m 544 * m 924 + m 547 * m 932 - m 541 * m 907
  e949 : m 949 = m 939 + m 538 * m 946 + m 544 * m 940 + m 547 * m 941 + m 549 * m 944 - m 541 * m 947
  e950 : m 950 = m 942 + m 542 * m 947 - m 539 * m 946 - m 545 * m 940 - m 550 * m 944
  e951 : m 951 = m 943 + m 543 * m 947 + m 548 * m 941 + m 551 * m 944 - m 540 * m 946 - m 546 * m 940
  e962 : m 962 = m 894 + m 542 * m 917 - m 539 * m 913 - m 545 * m 925 - m 550 * m 938
  e966 : m 966 = m 962 + m 954 * m 668 + m 955 * m 667 + m 957 * m 665 + m 961 * m 669 - m 958 * m 666
  e976 : m 976 = m 901 + m 543 * m 917 + m 548 * m 933 + m 551 * m 938 - m 540 * m 913 - m 546 * m 925
  e980 : m 980 = m 976 + m 967 * m 668 + m 970 * m 667 + m 971 * m 665 + m 975 * m 669 - m 972 * m 666
  e984 : m 984 = m 908 + m 902 * m 667 + m 903 * m 668 + m 906 * m 665 - m 907 * m 666
  e989 : m 989 = m 949 * m 964 - m 950 * m 963
  e990 : m 990 = m 905 * m 979 - m 973 * m 983
  e991 : m 991 = m 949 * m 965 - m 951 * m 963
  e992 : m 992 = m 905 * m 978 - m 973 * m 982
  e993 : m 993 = m 949 * m 960 - m 945 * m 963
  e994 : m 994 = m 978 * m 983 - m 979 * m 982
  e995 : m 995 = m 950 * m 965 - m 951 * m 964
  e996 : m 996 = m 905 * m 977 - m 973 * m 981
  e997 : m 997 = m 950 * m 960 - m 945 * m 964
  e998 : m 998 = m 977 * m 983 - m 979 * m 981
  e999 : m 999 = m 951 * m 960 - m 945 * m 965
  e1000 : m 1000 = m 977 * m 982 - m 978 * m 981
  e1001 : m 1001 = m 989 * m 990 + m 993 * m 994 + m 995 * m 996 + m 999 * m 1000 - m 991 * m 992 - m 997 * m 998
  e1012 : m 1012 = m 950 * m 979 - m 951 * m 978
  e1013 : m 1013 = m 950 * m 973 - m 945 * m 978
  e1014 : m 1014 = m 951 * m 973 - m 945 * m 979
  e1015 : m 1015 = m 983 * m 1013 - m 905 * m 1012 - m 982 * m 1014
  e1016 : m 1016 = m 949 * m 979 - m 951 * m 977
  e1017 : m 1017 = m 949 * m 973 - m 945 * m 977
  e1018 : m 1018 = m 983 * m 1017 - m 905 * m 1016 - m 981 * m 1014
  e1019 : m 1019 = m 949 * m 978 - m 950 * m 977
  e1020 : m 1020 = m 982 * m 1017 - m 905 * m 1019 - m 981 * m 1013
  e1021 : m 1021 = m 982 * m 1016 - m 981 * m 1012 - m 983 * m 1019
  e1022 : m 1022 = m 983 * m 997 - m 905 * m 995 - m 982 * m 999
  e1023 : m 1023 = m 983 * m 993 - m 905 * m 991 - m 981 * m 999
  e1024 : m 1024 = m 982 * m 993 - m 905 * m 989 - m 981 * m 997
  e1025 : m 1025 = m 982 * m 991 - m 981 * m 995 - m 983 * m 989
  e1026 : m 1026 = m 979 * m 997 - m 973 * m 995 - m 978 * m 999
  e1027 : m 1027 = m 979 * m 993 - m 973 * m 991 - m 977 * m 999
  e1028 : m 1028 = m 978 * m 993 - m 973 * m 989 - m 977 * m 997
  e1029 : m 1029 = m 978 * m 991 - m 977 * m 995 - m 979 * m 989
  e985 : m 985 = m 952 - m 753
  e987 : m 987 = m 980 - m 755
  e986 : m 986 = m 966 - m 754
  e988 : m 988 = m 984 - m 756
  e1030 : m 1030 = (m 1005 * m 985 + m 1022 * m 987 - m 1015 * m 986 - m 1026 * m 988) / m 1001
  e5099 : m 5099 = m 1030
  e1031 : m 1031 = (m 1008 * m 985 + m 1023 * m 987 - m 1018 * m 986 - m 1027 * m 988) / m 1001
  e5100 : m 5100 = -m 1031
  e1032 : m 1032 = (m 1010 * m 985 + m 1024 * m 987 - m 1020 * m 986 - m 1028 * m 988) / m 1001
  e5101 : m 5101 = m 1032
  e1033 : m 1033 = (m 1011 * m 985 + m 1025 * m 987 - m 1021 * m 986 - m 1029 * m 988) / m 1001
  e5102 : m 5102 = -m 1033

theorem dynEqs {m : ℕ → ℝ} (heq : ∀ s ∈ body, m s.1 = s.2.val real m) : DynEqs m where
  e983 := heq (983, z 543 ⊛ z 907 ⊹ z 548 ⊛ z 903 ⊝ z 540 ⊛ z 906 ⊝ z 546 ⊛ z 902) (rate_mem (by decide +kernel))
  e956 := heq (956, z 893 ⊝ z 545 ⊛ z 921) (rate_mem (by decide +kernel))
  e958 := heq (958, z 542 ⊛ z 914 ⊝ z 539 ⊛ z 910 ⊝ z 545 ⊛ z 916) (rate_mem (by decide +kernel))
  e957 := heq (957, z 542 ⊛ z 910 ⊝ z 539 ⊛ z 909 ⊝ z 545 ⊛ z 912) (rate_mem (by decide +kernel))
  e955 := heq (955, z 892 ⊹ z 542 ⊛ z 916 ⊝ z 539 ⊛ z 912 ⊝ z 545 ⊛ z 919 ⊝ z 550 ⊛ z 936) (rate_mem (by decide +kernel))
  e961 := heq (961, neg (z 545) ⊛ z 923 ⊝ z 550 ⊛ z 937) (rate_mem (by decide +kernel))
  e964 := heq (964, z 956 ⊹ z 542 ⊛ z 958 ⊝ z 539 ⊛ z 957 ⊝ z 545 ⊛ z 955 ⊝ z 550 ⊛ z 961) (rate_mem (by decide +kernel))
  e973 := heq (973, z 543 ⊛ z 907 ⊹ z 548 ⊛ z 932 ⊝ z 540 ⊛ z 906 ⊝ z 546 ⊛ z 924) (rate_mem (by decide +kernel))
  e960 := heq (960, z 542 ⊛ z 907 ⊝ z 539 ⊛ z 906 ⊝ z 545 ⊛ z 924) (rate_mem (by decide +kernel))
  e974 := heq (974, z 548 ⊛ z 929 ⊝ z 546 ⊛ z 921) (rate_mem (by decide +kernel))
  e972 := heq (972, z 900 ⊹ z 543 ⊛ z 914 ⊹ z 548 ⊛ z 915 ⊝ z 540 ⊛ z 910 ⊝ z 546 ⊛ z 916) (rate_mem (by decide +kernel))
  e971 := heq (971, z 543 ⊛ z 910 ⊹ z 548 ⊛ z 911 ⊝ z 899 ⊝ z 540 ⊛ z 909 ⊝ z 546 ⊛ z 912) (rate_mem (by decide +kernel))
  e970 := heq (970, z 898 ⊹ z 543 ⊛ z 916 ⊹ z 548 ⊛ z 927 ⊹ z 551 ⊛ z 936 ⊝ z 540 ⊛ z 912 ⊝ z 546 ⊛ z 919) (rate_mem (by decide +kernel))
  e975 := heq (975, z 548 ⊛ z 931 ⊹ z 551 ⊛ z 937 ⊝ z 546 ⊛ z 923) (rate_mem (by decide +kernel))
  e978 := heq (978, z 974 ⊹ z 542 ⊛ z 972 ⊝ z 539 ⊛ z 971 ⊝ z 545 ⊛ z 970 ⊝ z 550 ⊛ z 975) (rate_mem (by decide +kernel))
  e1003 := heq (1003, z 964 ⊛ z 973 ⊝ z 960 ⊛ z 978) (rate_mem (by decide +kernel))
  e969 := heq (969, z 897 ⊹ z 540 ⊛ z 899 ⊹ z 543 ⊛ z 900 ⊹ z 548 ⊛ z 930 ⊝ z 546 ⊛ z 922) (rate_mem (by decide +kernel))
  e967 := heq (967, z 895 ⊹ z 543 ⊛ z 915 ⊹ z 548 ⊛ z 928 ⊹ z 551 ⊛ z 934 ⊝ z 540 ⊛ z 911 ⊝ z 546 ⊛ z 920) (rate_mem (by decide +kernel))
  e979 := heq (979, z 969 ⊹ z 543 ⊛ z 972 ⊹ z 548 ⊛ z 967 ⊹ z 551 ⊛ z 975 ⊝ z 540 ⊛ z 971 ⊝ z 546 ⊛ z 970) (rate_mem (by decide +kernel))
  e959 := heq (959, z 539 ⊛ z 899 ⊹ z 542 ⊛ z 900 ⊝ z 545 ⊛ z 922) (rate_mem (by decide +kernel))
  e954 := heq (954, z 891 ⊹ z 542 ⊛ z 915 ⊝ z 539 ⊛ z 911 ⊝ z 545 ⊛ z 920 ⊝ z 550 ⊛ z 934) (rate_mem (by decide +kernel))
  e965 := heq (965, z 959 ⊹ z 543 ⊛ z 958 ⊹ z 548 ⊛ z 954 ⊹ z 551 ⊛ z 961 ⊝ z 540 ⊛ z 957 ⊝ z 546 ⊛ z 955) (rate_mem (by decide +kernel))
  e1002 := heq (1002, z 964 ⊛ z 979 ⊝ z 965 ⊛ z 978) (rate_mem (by decide +kernel))
  e982 := heq (982, z 542 ⊛ z 907 ⊝ z 539 ⊛ z 906 ⊝ z 545 ⊛ z 902) (rate_mem (by decide +kernel))
  e1004 := heq (1004, z 965 ⊛ z 973 ⊝ z 960 ⊛ z 979) (rate_mem (by decide +kernel))
  e1005 := heq (1005, z 983 ⊛ z 1003 ⊝ z 905 ⊛ z 1002 ⊝ z 982 ⊛ z 1004) (rate_mem (by decide +kernel))
  e948 := heq (948, z 889 ⊹ z 538 ⊛ z 913 ⊹ z 544 ⊛ z 925 ⊹ z 547 ⊛ z 933 ⊹ z 549 ⊛ z 938 ⊝ z 541 ⊛ z 917) (rate_mem (by decide +kernel))
  e940 := heq (940, z 881 ⊹ z 538 ⊛ z 912 ⊹ z 544 ⊛ z 919 ⊹ z 547 ⊛ z 927 ⊹ z 549 ⊛ z 936 ⊝ z 541 ⊛ z 916) (rate_mem (by decide +kernel))
  e581 := heq (581, n 2 ⊛ z 33 ⊛ z 580 ⊹ n 2 ⊛ z 34 ⊛ z 579) (rate_mem (by decide +kernel))
  e584 := heq (584, (n 2 ⊛ z 36 ⊛ z 580 ⊝ z 33 ⊛ z 581 ⊘ hpow (z 35) 1) ⊘ pow (z 36) 2) (rate_mem (by decide +kernel))
  e582 := heq (582, (n 2 ⊛ z 36 ⊛ z 579 ⊝ z 34 ⊛ z 581 ⊘ hpow (z 35) 1) ⊘ pow (z 36) 2) (rate_mem (by decide +kernel))
  e630 := heq (630, z 25 ⊛ z 580 ⊹ z 33 ⊛ z 296) (rate_mem (by decide +kernel))
  e631 := heq (631, (n 2 ⊛ z 35 ⊛ z 630 ⊝ z 416 ⊛ z 581) ⊘ hpow (z 35) 3) (rate_mem (by decide +kernel))
  e632 := heq (632, ((z 25 ⊛ z 36 ⊝ n 2 ⊛ z 33 ⊛ z 420) ⊛ z 581 ⊘ hpow (z 35) 1 ⊝ z 36 ⊛ (n 2 ⊛ z 36 ⊛ z 296 ⊝ n 2 ⊛ z 420 ⊛ z 580 ⊝ z 33 ⊛ z 631)) ⊘ pow (z 36) 3) (rate_mem (by decide +kernel))
  e633 := heq (633, (z 34 ⊛ z 36 ⊛ z 631 ⊹ n 2 ⊛ z 36 ⊛ z 420 ⊛ z 579 ⊝ n 2 ⊛ z 34 ⊛ z 420 ⊛ z 581 ⊘ hpow (z 35) 1) ⊘ pow (z 36) 3) (rate_mem (by decide +kernel))
  e634 := heq (634, z 443 ⊛ z 308 ⊝ z 434 ⊛ z 268 ⊝ qt 2 ⊛ rf ⊛ z 28 ⊛ z 632 ⊝ qt 2 ⊛ rf ⊛ z 32 ⊛ z 633) (rate_mem (by decide +kernel))
  e635 := heq (635, z 25 ⊛ z 579 ⊹ z 34 ⊛ z 296) (rate_mem (by decide +kernel))
  e636 := heq (636, (n 2 ⊛ z 35 ⊛ z 635 ⊝ z 412 ⊛ z 581) ⊘ hpow (z 35) 3) (rate_mem (by decide +kernel))
  e638 := heq (638, (z 33 ⊛ z 36 ⊛ z 636 ⊹ n 2 ⊛ z 36 ⊛ z 418 ⊛ z 580 ⊝ n 2 ⊛ z 33 ⊛ z 418 ⊛ z 581 ⊘ hpow (z 35) 1) ⊘ pow (z 36) 3) (rate_mem (by decide +kernel))
  e637 := heq (637, ((z 25 ⊛ z 36 ⊝ n 2 ⊛ z 34 ⊛ z 418) ⊛ z 581 ⊘ hpow (z 35) 1 ⊝ z 36 ⊛ (n 2 ⊛ z 36 ⊛ z 296 ⊝ n 2 ⊛ z 418 ⊛ z 579 ⊝ z 34 ⊛ z 636)) ⊘ pow (z 36) 3) (rate_mem (by decide +kernel))
  e639 := heq (639, z 432 ⊛ z 268 ⊝ z 444 ⊛ z 308 ⊝ qt 2 ⊛ rf ⊛ z 28 ⊛ z 638 ⊝ qt 2 ⊛ rf ⊛ z 32 ⊛ z 637) (rate_mem (by decide +kernel))
  e640 := heq (640, n 2 ⊛ z 23 ⊛ z 579 ⊹ n 2 ⊛ z 34 ⊛ z 305 ⊝ n 2 ⊛ z 5 ⊛ z 33 ⊛ q5p ⊝ n 2 ⊛ z 6 ⊛ z 580) (rate_mem (by decide +kernel))
  e641 := heq (641, (n 2 ⊛ z 35 ⊛ z 640 ⊝ z 411 ⊛ z 581) ⊘ hpow (z 35) 3) (rate_mem (by decide +kernel))
  e643 := heq (643, (n 2 ⊛ z 33 ⊛ z 421 ⊛ z 581 ⊘ hpow (z 35) 1 ⊝ z 36 ⊛ (n 4 ⊛ z 5 ⊛ z 36 ⊛ q5p ⊹ z 33 ⊛ z 641 ⊹ n 2 ⊛ z 421 ⊛ z 580 ⊝ n 2 ⊛ z 6 ⊛ z 581 ⊘ hpow (z 35) 1)) ⊘ pow (z 36) 3) (rate_mem (by decide +kernel))
  e642 := heq (642, (n 2 ⊛ (z 23 ⊛ z 36 ⊝ z 34 ⊛ z 421) ⊛ z 581 ⊘ hpow (z 35) 1 ⊝ z 36 ⊛ (n 4 ⊛ z 36 ⊛ z 305 ⊝ n 2 ⊛ z 421 ⊛ z 579 ⊝ z 34 ⊛ z 641)) ⊘ pow (z 36) 3) (rate_mem (by decide +kernel))
  e644 := heq (644, qt 2 ⊛ z 430 ⊛ z 268 ⊹ qt 1 ⊛ rf ⊛ z 28 ⊛ z 643 ⊝ qt 2 ⊛ z 446 ⊛ z 308 ⊝ qt 1 ⊛ rf ⊛ z 32 ⊛ z 642) (rate_mem (by decide +kernel))
  e646 := heq (646, z 5 ⊛ z 300 ⊝ z 6 ⊛ z 29 ⊛ q5p) (rate_mem (by decide +kernel))
  e647 := heq (647, z 33 ⊛ z 646 ⊹ z 410 ⊛ z 580) (rate_mem (by decide +kernel))
  e648 := heq (648, (n 2 ⊛ z 35 ⊛ z 647 ⊝ z 415 ⊛ z 581) ⊘ hpow (z 35) 3) (rate_mem (by decide +kernel))
  e650 := heq (650, (z 34 ⊛ z 36 ⊛ z 648 ⊹ n 2 ⊛ z 36 ⊛ z 417 ⊛ z 579 ⊝ n 2 ⊛ z 34 ⊛ z 417 ⊛ z 581 ⊘ hpow (z 35) 1) ⊘ pow (z 36) 3) (rate_mem (by decide +kernel))
  e649 := heq (649, (n 2 ⊛ z 33 ⊛ z 417 ⊛ z 581 ⊘ hpow (z 35) 1 ⊹ z 36 ⊛ (n 2 ⊛ z 36 ⊛ z 646 ⊝ n 2 ⊛ z 417 ⊛ z 580 ⊝ z 33 ⊛ z 648 ⊝ z 410 ⊛ z 581 ⊘ hpow (z 35) 1)) ⊘ pow (z 36) 3) (rate_mem (by decide +kernel))
  e651 := heq (651, z 429 ⊛ z 268 ⊹ z 441 ⊛ z 308 ⊹ qt 2 ⊛ rf ⊛ z 32 ⊛ z 650 ⊝ qt 2 ⊛ rf ⊛ z 28 ⊛ z 649) (rate_mem (by decide +kernel))
  e652 := heq (652, z 29 ⊛ z 579 ⊹ z 34 ⊛ z 300) (rate_mem (by decide +kernel))
  e653 := heq (653, (n 2 ⊛ z 35 ⊛ z 652 ⊝ z 414 ⊛ z 581) ⊘ hpow (z 35) 3) (rate_mem (by decide +kernel))
  e655 := heq (655, (z 33 ⊛ z 36 ⊛ z 653 ⊹ n 2 ⊛ z 36 ⊛ z 419 ⊛ z 580 ⊝ n 2 ⊛ z 33 ⊛ z 419 ⊛ z 581 ⊘ hpow (z 35) 1) ⊘ pow (z 36) 3) (rate_mem (by decide +kernel))
  e654 := heq (654, ((z 29 ⊛ z 36 ⊝ n 2 ⊛ z 34 ⊛ z 419) ⊛ z 581 ⊘ hpow (z 35) 1 ⊝ z 36 ⊛ (n 2 ⊛ z 36 ⊛ z 300 ⊝ n 2 ⊛ z 419 ⊛ z 579 ⊝ z 34 ⊛ z 653)) ⊘ pow (z 36) 3) (rate_mem (by decide +kernel))
  e656 := heq (656, z 433 ⊛ z 268 ⊝ z 445 ⊛ z 308 ⊝ qt 2 ⊛ rf ⊛ z 28 ⊛ z 655 ⊝ qt 2 ⊛ rf ⊛ z 32 ⊛ z 654) (rate_mem (by decide +kernel))
  e657 := heq (657, n 2 ⊛ z 27 ⊛ z 579 ⊹ n 2 ⊛ z 31 ⊛ z 580 ⊹ n 2 ⊛ z 33 ⊛ z 269 ⊹ n 2 ⊛ z 34 ⊛ z 310) (rate_mem (by decide +kernel))
  e658 := heq (658, (n 2 ⊛ z 35 ⊛ z 657 ⊝ z 413 ⊛ z 581) ⊘ hpow (z 35) 3) (rate_mem (by decide +kernel))
  e659 := heq (659, (n 2 ⊛ (z 31 ⊛ z 36 ⊝ z 33 ⊛ z 422) ⊛ z 581 ⊘ hpow (z 35) 1 ⊝ z 36 ⊛ (n 4 ⊛ z 36 ⊛ z 269 ⊝ n 2 ⊛ z 422 ⊛ z 580 ⊝ z 33 ⊛ z 658)) ⊘ pow (z 36) 3) (rate_mem (by decide +kernel))
  e660 := heq (660, (n 2 ⊛ (z 27 ⊛ z 36 ⊝ z 34 ⊛ z 422) ⊛ z 581 ⊘ hpow (z 35) 1 ⊝ z 36 ⊛ (n 4 ⊛ z 36 ⊛ z 310 ⊝ n 2 ⊛ z 422 ⊛ z 579 ⊝ z 34 ⊛ z 658)) ⊘ pow (z 36) 3) (rate_mem (by decide +kernel))
  e661 := heq (661, qt 2 ⊛ z 431 ⊛ z 268 ⊹ qt 2 ⊛ z 442 ⊛ z 308 ⊝ qt 1 ⊛ rf ⊛ z 28 ⊛ z 659 ⊝ qt 1 ⊛ rf ⊛ z 32 ⊛ z 660) (rate_mem (by decide +kernel))
  e667 := heq (667, (z 525 ⊛ z 568 ⊹ z 478 ⊛ z 496 ⊛ z 620 ⊝ z 511 ⊛ z 553 ⊝ z 535 ⊛ z 664 ⊝ z 478 ⊛ z 528 ⊛ z 628) ⊘ z 494) (rate_mem (by decide +kernel))
  e941 := heq (941, z 882 ⊹ z 538 ⊛ z 911 ⊹ z 544 ⊛ z 920 ⊹ z 547 ⊛ z 928 ⊹ z 549 ⊛ z 934 ⊝ z 541 ⊛ z 915) (rate_mem (by decide +kernel))
  e668 := heq (668, z 536 ⊛ z 664 ⊘ z 494) (rate_mem (by decide +kernel))
  e944 := heq (944, z 885 ⊹ z 544 ⊛ z 923 ⊹ z 547 ⊛ z 931 ⊹ z 549 ⊛ z 937) (rate_mem (by decide +kernel))
  e669 := heq (669, (z 526 ⊛ z 568 ⊹ z 532 ⊛ z 628 ⊝ z 512 ⊛ z 553 ⊝ z 527 ⊛ z 620 ⊝ z 537 ⊛ z 664) ⊘ z 494) (rate_mem (by decide +kernel))
  e946 := heq (946, z 887 ⊹ z 538 ⊛ z 909 ⊹ z 544 ⊛ z 912 ⊹ z 547 ⊛ z 911 ⊝ z 541 ⊛ z 910) (rate_mem (by decide +kernel))
  e665 := heq (665, (z 519 ⊛ z 568 ⊹ z 487 ⊛ z 496 ⊛ z 620 ⊝ z 504 ⊛ z 553 ⊝ z 533 ⊛ z 664 ⊝ z 487 ⊛ z 528 ⊛ z 628) ⊘ z 494) (rate_mem (by decide +kernel))
  e947 := heq (947, z 888 ⊹ z 538 ⊛ z 910 ⊹ z 544 ⊛ z 916 ⊹ z 547 ⊛ z 915 ⊝ z 541 ⊛ z 914) (rate_mem (by decide +kernel))
  e666 := heq (666, (z 523 ⊛ z 568 ⊹ z 482 ⊛ z 496 ⊛ z 620 ⊝ z 509 ⊛ z 553 ⊝ z 534 ⊛ z 664 ⊝ z 482 ⊛ z 528 ⊛ z 628) ⊘ z 494) (rate_mem (by decide +kernel))
  e952 := heq (952, z 948 ⊹ z 940 ⊛ z 667 ⊹ z 941 ⊛ z 668 ⊹ z 944 ⊛ z 669 ⊹ z 946 ⊛ z 665 ⊝ z 947 ⊛ z 666) (rate_mem (by decide +kernel))
  e953 := heq (953, z 890 ⊹ z 542 ⊛ z 888 ⊝ z 539 ⊛ z 887 ⊝ z 545 ⊛ z 918 ⊝ z 550 ⊛ z 935) (rate_mem (by decide +kernel))
  e963 := heq (963, z 953 ⊹ z 538 ⊛ z 957 ⊹ z 544 ⊛ z 955 ⊹ z 547 ⊛ z 954 ⊹ z 549 ⊛ z 961 ⊝ z 541 ⊛ z 958) (rate_mem (by decide +kernel))
  e968 := heq (968, z 896 ⊹ z 543 ⊛ z 888 ⊹ z 548 ⊛ z 926 ⊹ z 551 ⊛ z 935 ⊝ z 540 ⊛ z 887 ⊝ z 546 ⊛ z 918) (rate_mem (by decide +kernel))
  e977 := heq (977, z 968 ⊹ z 538 ⊛ z 971 ⊹ z 544 ⊛ z 970 ⊹ z 547 ⊛ z 967 ⊹ z 549 ⊛ z 975 ⊝ z 541 ⊛ z 972) (rate_mem (by decide +kernel))
  e1007 := heq (1007, z 963 ⊛ z 973 ⊝ z 960 ⊛ z 977) (rate_mem (by decide +kernel))
  e1006 := heq (1006, z 963 ⊛ z 979 ⊝ z 965 ⊛ z 977) (rate_mem (by decide +kernel))
  e981 := heq (981, z 904 ⊹ z 538 ⊛ z 906 ⊹ z 544 ⊛ z 902 ⊹ z 547 ⊛ z 903 ⊝ z 541 ⊛ z 907) (rate_mem (by decide +kernel))
  e1008 := heq (1008, z 983 ⊛ z 1007 ⊝ z 905 ⊛ z 1006 ⊝ z 981 ⊛ z 1004) (rate_mem (by decide +kernel))
  e1009 := heq (1009, z 963 ⊛ z 978 ⊝ z 964 ⊛ z 977) (rate_mem (by decide +kernel))
  e1010 := heq (1010, z 982 ⊛ z 1007 ⊝ z 905 ⊛ z 1009 ⊝ z 981 ⊛ z 1003) (rate_mem (by decide +kernel))
  e1011 := heq (1011, z 982 ⊛ z 1006 ⊝ z 981 ⊛ z 1002 ⊝ z 983 ⊛ z 1009) (rate_mem (by decide +kernel))
  e939 := heq (939, z 880 ⊹ z 538 ⊛ z 887 ⊹ z 544 ⊛ z 918 ⊹ z 547 ⊛ z 926 ⊹ z 549 ⊛ z 935 ⊝ z 541 ⊛ z 888) (rate_mem (by decide +kernel))
  e942 := heq (942, z 883 ⊹ z 544 ⊛ z 921 ⊹ z 547 ⊛ z 929) (rate_mem (by decide +kernel))
  e943 := heq (943, z 884 ⊹ z 544 ⊛ z 922 ⊹ z 547 ⊛ z 930 ⊝ z 538 ⊛ z 899 ⊝ z 541 ⊛ z 900) (rate_mem (by decide +kernel))
  e945 := heq (945, z 886 ⊹ z 538 ⊛ z 906 ⊹ z 544 ⊛ z 924 ⊹ z 547 ⊛ z 932 ⊝ z 541 ⊛ z 907) (rate_mem (by decide +kernel))
  e949 := heq (949, z 939 ⊹ z 538 ⊛ z 946 ⊹ z 544 ⊛ z 940 ⊹ z 547 ⊛ z 941 ⊹ z 549 ⊛ z 944 ⊝ z 541 ⊛ z 947) (rate_mem (by decide +kernel))
  e950 := heq (950, z 942 ⊹ z 542 ⊛ z 947 ⊝ z 539 ⊛ z 946 ⊝ z 545 ⊛ z 940 ⊝ z 550 ⊛ z 944) (rate_mem (by decide +kernel))
  e951 := heq (951, z 943 ⊹ z 543 ⊛ z 947 ⊹ z 548 ⊛ z 941 ⊹ z 551 ⊛ z 944 ⊝ z 540 ⊛ z 946 ⊝ z 546 ⊛ z 940) (rate_mem (by decide +kernel))
  e962 := heq (962, z 894 ⊹ z 542 ⊛ z 917 ⊝ z 539 ⊛ z 913 ⊝ z 545 ⊛ z 925 ⊝ z 550 ⊛ z 938) (rate_mem (by decide +kernel))
  e966 := heq (966, z 962 ⊹ z 954 ⊛ z 668 ⊹ z 955 ⊛ z 667 ⊹ z 957 ⊛ z 665 ⊹ z 961 ⊛ z 669 ⊝ z 958 ⊛ z 666) (rate_mem (by decide +kernel))
  e976 := heq (976, z 901 ⊹ z 543 ⊛ z 917 ⊹ z 548 ⊛ z 933 ⊹ z 551 ⊛ z 938 ⊝ z 540 ⊛ z 913 ⊝ z 546 ⊛ z 925) (rate_mem (by decide +kernel))
  e980 := heq (980, z 976 ⊹ z 967 ⊛ z 668 ⊹ z 970 ⊛ z 667 ⊹ z 971 ⊛ z 665 ⊹ z 975 ⊛ z 669 ⊝ z 972 ⊛ z 666) (rate_mem (by decide +kernel))
  e984 := heq (984, z 908 ⊹ z 902 ⊛ z 667 ⊹ z 903 ⊛ z 668 ⊹ z 906 ⊛ z 665 ⊝ z 907 ⊛ z 666) (rate_mem (by decide +kernel))
  e989 := heq (989, z 949 ⊛ z 964 ⊝ z 950 ⊛ z 963) (rate_mem (by decide +kernel))
  e990 := heq (990, z 905 ⊛ z 979 ⊝ z 973 ⊛ z 983) (rate_mem (by decide +kernel))
  e991 := heq (991, z 949 ⊛ z 965 ⊝ z 951 ⊛ z 963) (rate_mem (by decide +kernel))
  e992 := heq (992, z 905 ⊛ z 978 ⊝ z 973 ⊛ z 982) (rate_mem (by decide +kernel))
  e993 := heq (993, z 949 ⊛ z 960 ⊝ z 945 ⊛ z 963) (rate_mem (by decide +kernel))
  e994 := heq (994, z 978 ⊛ z 983 ⊝ z 979 ⊛ z 982) (rate_mem (by decide +kernel))
  e995 := heq (995, z 950 ⊛ z 965 ⊝ z 951 ⊛ z 964) (rate_mem (by decide +kernel))
  e996 := heq (996, z 905 ⊛ z 977 ⊝ z 973 ⊛ z 981) (rate_mem (by decide +kernel))
  e997 := heq (997, z 950 ⊛ z 960 ⊝ z 945 ⊛ z 964) (rate_mem (by decide +kernel))
  e998 := heq (998, z 977 ⊛ z 983 ⊝ z 979 ⊛ z 981) (rate_mem (by decide +kernel))
  e999 := heq (999, z 951 ⊛ z 960 ⊝ z 945 ⊛ z 965) (rate_mem (by decide +kernel))
  e1000 := heq (1000, z 977 ⊛ z 982 ⊝ z 978 ⊛ z 981) (rate_mem (by decide +kernel))
  e1001 := heq (1001, z 989 ⊛ z 990 ⊹ z 993 ⊛ z 994 ⊹ z 995 ⊛ z 996 ⊹ z 999 ⊛ z 1000 ⊝ z 991 ⊛ z 992 ⊝ z 997 ⊛ z 998) (rate_mem (by decide +kernel))
  e1012 := heq (1012, z 950 ⊛ z 979 ⊝ z 951 ⊛ z 978) (rate_mem (by decide +kernel))
  e1013 := heq (1013, z 950 ⊛ z 973 ⊝ z 945 ⊛ z 978) (rate_mem (by decide +kernel))
  e1014 := heq (1014, z 951 ⊛ z 973 ⊝ z 945 ⊛ z 979) (rate_mem (by decide +kernel))
  e1015 := heq (1015, z 983 ⊛ z 1013 ⊝ z 905 ⊛ z 1012 ⊝ z 982 ⊛ z 1014) (rate_mem (by decide +kernel))
  e1016 := heq (1016, z 949 ⊛ z 979 ⊝ z 951 ⊛ z 977) (rate_mem (by decide +kernel))
  e1017 := heq (1017, z 949 ⊛ z 973 ⊝ z 945 ⊛ z 977) (rate_mem (by decide +kernel))
  e1018 := heq (1018, z 983 ⊛ z 1017 ⊝ z 905 ⊛ z 1016 ⊝ z 981 ⊛ z 1014) (rate_mem (by decide +kernel))
  e1019 := heq (1019, z 949 ⊛ z 978 ⊝ z 950 ⊛ z 977) (rate_mem (by decide +kernel))
  e1020 := heq (1020, z 982 ⊛ z 1017 ⊝ z 905 ⊛ z 1019 ⊝ z 981 ⊛ z 1013) (rate_mem (by decide +kernel))
  e1021 := heq (1021, z 982 ⊛ z 1016 ⊝ z 981 ⊛ z 1012 ⊝ z 983 ⊛ z 1019) (rate_mem (by decide +kernel))
  e1022 := heq (1022, z 983 ⊛ z 997 ⊝ z 905 ⊛ z 995 ⊝ z 982 ⊛ z 999) (rate_mem (by decide +kernel))
  e1023 := heq (1023, z 983 ⊛ z 993 ⊝ z 905 ⊛ z 991 ⊝ z 981 ⊛ z 999) (rate_mem (by decide +kernel))
  e1024 := heq (1024, z 982 ⊛ z 993 ⊝ z 905 ⊛ z 989 ⊝ z 981 ⊛ z 997) (rate_mem (by decide +kernel))
  e1025 := heq (1025, z 982 ⊛ z 991 ⊝ z 981 ⊛ z 995 ⊝ z 983 ⊛ z 989) (rate_mem (by decide +kernel))
  e1026 := heq (1026, z 979 ⊛ z 997 ⊝ z 973 ⊛ z 995 ⊝ z 978 ⊛ z 999) (rate_mem (by decide +kernel))
  e1027 := heq (1027, z 979 ⊛ z 993 ⊝ z 973 ⊛ z 991 ⊝ z 977 ⊛ z 999) (rate_mem (by decide +kernel))
  e1028 := heq (1028, z 978 ⊛ z 993 ⊝ z 973 ⊛ z 989 ⊝ z 977 ⊛ z 997) (rate_mem (by decide +kernel))
  e1029 := heq (1029, z 978 ⊛ z 991 ⊝ z 977 ⊛ z 995 ⊝ z 979 ⊛ z 989) (rate_mem (by decide +kernel))
  e985 := heq (985, z 952 ⊝ z 753) (rate_mem (by decide +kernel))
  e987 := heq (987, z 980 ⊝ z 755) (rate_mem (by decide +kernel))
  e986 := heq (986, z 966 ⊝ z 754) (rate_mem (by decide +kernel))
  e988 := heq (988, z 984 ⊝ z 756) (rate_mem (by decide +kernel))
  e1030 := heq (1030, (z 1005 ⊛ z 985 ⊹ z 1022 ⊛ z 987 ⊝ z 1015 ⊛ z 986 ⊝ z 1026 ⊛ z 988) ⊘ z 1001) (rate_mem (by decide +kernel))
  e5099 := heq (5099, z 1030) (rate_mem (by decide +kernel))
  e1031 := heq (1031, (z 1008 ⊛ z 985 ⊹ z 1023 ⊛ z 987 ⊝ z 1018 ⊛ z 986 ⊝ z 1027 ⊛ z 988) ⊘ z 1001) (rate_mem (by decide +kernel))
  e5100 := heq (5100, neg (z 1031)) (rate_mem (by decide +kernel))
  e1032 := heq (1032, (z 1010 ⊛ z 985 ⊹ z 1024 ⊛ z 987 ⊝ z 1020 ⊛ z 986 ⊝ z 1028 ⊛ z 988) ⊘ z 1001) (rate_mem (by decide +kernel))
  e5101 := heq (5101, z 1032) (rate_mem (by decide +kernel))
  e1033 := heq (1033, (z 1011 ⊛ z 985 ⊹ z 1025 ⊛ z 987 ⊝ z 1021 ⊛ z 986 ⊝ z 1029 ⊛ z 988) ⊘ z 1001) (rate_mem (by decide +kernel))
  e5102 := heq (5102, neg (z 1033)) (rate_mem (by decide +kernel))

end BP.EL
