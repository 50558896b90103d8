import Verif.Lemmas.JTree
import Verif.Gen.Jacobian9

/-!
# Generated by tools/gen_jacobian.py
-/

namespace BP.EL

def jac262 : JTree := .node (.node (.node (.node (.node (.node .nil (.node (.node (.node (.leaf (.mult 29401 1477 (.ofNat 1) 0)) .nil) .nil) .nil)) (.node (.node (.node (.node (.leaf (.mult 5737 1730 (.ofNat 1) 0)) .nil) .nil) .nil) (.node (.node (.node (.leaf (.mult 17729 1741 (.ofNat 1) 0)) .nil) .nil) .nil))) (.node (.node .nil (.node (.node (.node (.leaf (.mult 36523 1925 (.ofNat 1) 0)) .nil) .nil) .nil)) (.node (.node (.node (.node (.leaf (.mult 36151 1823 (.ofNat 1) 0)) .nil) .nil) .nil) (.node (.node (.node (.leaf (.mult 12227 1686 (.ofNat 1) 0)) .nil) .nil) .nil)))) (.node (.node (.node .nil (.node (.node (.node (.leaf (.mult 30013 1893 (.ofNat 1) 0)) .nil) .nil) .nil)) (.node (.node (.node (.node (.leaf (.mult 23761 1789 (.ofNat 1) 0)) .nil) .nil) .nil) .nil)) (.node (.node .nil (.node (.node (.node (.leaf (.mult 30197 1969 (.ofNat 1) 0)) .nil) .nil) .nil)) (.node .nil (.node (.node (.node (.leaf (.mult 17659 1710 (.ofNat 1) 0)) .nil) .nil) .nil))))) (.node (.node (.node (.node .nil (.node (.node (.node (.leaf (.mult 36229 1849 (.ofNat 1) 0)) .nil) .nil) .nil)) (.node (.node (.node (.node (.leaf (.mult 17761 1755 (.ofNat 1) 0)) .nil) .nil) .nil) .nil)) (.node .nil (.node .nil (.node (.node (.node (.leaf (.mult 36979 2029 (.ofNat 1) 0)) .nil) .nil) .nil)))) (.node (.node (.node .nil (.node (.node (.node (.leaf (.mult 36389 1901 (.ofNat 1) 0)) .nil) .nil) .nil)) (.node (.node (.node (.node (.leaf (.mult 23801 1814 (.ofNat 1) 0)) .nil) .nil) .nil) .nil)) (.node (.node .nil (.node (.node (.node (.leaf (.mult 36919 2016 (.ofNat 1) 0)) .nil) .nil) .nil)) (.node (.node (.node (.node (.leaf (.mult 35591 1602 (.ofNat 1) 0)) .nil) .nil) .nil) (.node (.node (.node (.leaf (.mult 29741 1714 (.ofNat 1) 0)) (.leaf (.trans [(37061, .negSucc 0)] 0))) .nil) .nil)))))) (.node (.node (.node (.node (.node .nil (.node (.node (.node (.leaf (.mult 3643 1058 (.ofNat 1) 0)) .nil) .nil) .nil)) (.node (.node (.node (.node (.leaf (.mult 17683 1738 (.ofNat 1) 0)) .nil) .nil) .nil) .nil)) (.node (.node .nil (.node (.node (.node (.leaf (.mult 17971 1947 (.negSucc 0) 0)) .nil) .nil) .nil)) .nil)) (.node (.node (.node .nil (.node (.node (.node (.leaf (.trans [(139638143, .ofNat 1)] 0)) .nil) .nil) .nil)) (.node (.node (.node (.node (.leaf (.mult 13469 1806 (.ofNat 1) 0)) .nil) .nil) .nil) .nil)) (.node (.node (.node (.node (.node (.leaf (.trans [(78899, .negSucc 0)] 0)) .nil) .nil) .nil) (.node (.node (.node (.leaf (.mult 36871 2004 (.ofNat 1) 0)) .nil) .nil) .nil)) (.node .nil (.node (.node (.node (.leaf (.trans [(18061, .ofNat 1), (18077, .negSucc 0)] 0)) .nil) .nil) .nil))))) (.node (.node (.node (.node .nil (.node (.node (.node (.leaf (.mult 23879 1862 (.ofNat 1) 0)) .nil) .nil) .nil)) (.node (.node (.node (.node (.leaf (.mult 29837 1761 (.negSucc 0) 0)) .nil) .nil) .nil) (.node (.node (.node (.leaf (.mult 23687 1775 (.ofNat 1) 0)) .nil) .nil) .nil))) (.node (.node (.node (.node (.node (.leaf (.mult 10151 1688 (.ofNat 1) 0)) .nil) .nil) .nil) .nil) (.node .nil (.node (.node (.node (.leaf (.mult 17599 1699 (.ofNat 1) 0)) .nil) .nil) .nil)))) (.node (.node (.node (.node (.node (.node (.leaf (.trans [(89711, .ofNat 1), (123107, .negSucc 0)] 0)) .nil) .nil) .nil) (.node (.node (.node (.leaf (.mult 36457 1909 (.ofNat 1) 0)) .nil) .nil) .nil)) (.node (.node (.node (.node (.leaf (.mult 8429 1839 (.ofNat 1) 0)) .nil) .nil) .nil) .nil)) (.node .nil (.node (.node (.node (.node (.leaf (.mult 29387 1469 (.negSucc 0) 0)) .nil) .nil) .nil) (.node (.node (.node (.leaf (.mult 35107 4920 (.ofNat 1) 0)) .nil) .nil) .nil))))))

def jac263 : JTree := .node (.node (.node (.node (.node (.node (.node .nil (.node (.node (.leaf (.mult 46099 4858 (.negSucc 0) 0)) .nil) .nil)) (.node (.node (.node (.leaf (.mult 28817 1039 (.ofNat 1) 0)) .nil) .nil) .nil)) .nil) (.node (.node .nil (.node (.node (.node (.leaf (.mult 36493 1921 (.ofNat 1) 0)) .nil) .nil) .nil)) (.node (.node (.node (.node (.leaf (.mult 29879 1819 (.ofNat 1) 0)) .nil) .nil) .nil) .nil))) (.node (.node (.node .nil (.node (.node (.node (.leaf (.trans [(1831074727, .ofNat 1)] 0)) .nil) .nil) .nil)) (.node (.node (.node (.node (.leaf (.mult 23741 1782 (.ofNat 1) 0)) .nil) .nil) .nil) .nil)) (.node (.node .nil (.node (.node (.node (.leaf (.mult 36821 1996 (.ofNat 1) 0)) .nil) .nil) .nil)) (.node .nil (.node (.node (.node (.leaf (.mult 23627 1716 (.ofNat 1) 0)) .nil) .nil) .nil))))) (.node (.node (.node (.node .nil (.node (.node (.node (.leaf (.mult 11047 1605 (.ofNat 1) 0)) .nil) .nil) .nil)) (.node (.node (.node (.node (.leaf (.trans [(45752327, .ofNat 1)] 0)) .nil) .nil) .nil) (.node (.node (.node (.leaf (.trans [(12845741, .ofNat 1)] 0)) .nil) .nil) .nil))) .nil) (.node (.node (.node .nil (.node (.node (.node (.leaf (.mult 23929 1882 (.ofNat 1) 0)) .nil) .nil) .nil)) (.node (.node (.node (.node (.leaf (.mult 15601 1810 (.negSucc 0) 0)) .nil) .nil) .nil) .nil)) (.node (.node .nil (.node (.node (.node (.leaf (.mult 36877 2005 (.ofNat 1) 0)) .nil) .nil) .nil)) (.node (.node (.node (.node (.leaf (.mult 8243 1040 (.ofNat 1) 0)) .nil) .nil) .nil) (.node (.node (.node (.leaf (.mult 15649 1985 (.ofNat 1) 0)) .nil) .nil) .nil)))))) (.node (.node (.node (.node (.node .nil (.node (.node (.node (.leaf (.mult 23203 1530 (.ofNat 1) 0)) .nil) .nil) .nil)) (.node (.node (.node (.node (.leaf (.mult 11783 1727 (.ofNat 1) 0)) .nil) .nil) .nil) .nil)) (.node (.node .nil (.node (.node (.node (.leaf (.mult 36563 1937 (.ofNat 1) 0)) .nil) .nil) .nil)) .nil)) (.node (.node (.node .nil (.node (.node (.node (.leaf (.mult 36343 1888 (.ofNat 1) 0)) .nil) .nil) .nil)) .nil) (.node (.node .nil (.node (.node (.node (.leaf (.mult 30269 2003 (.ofNat 1) 0)) .nil) .nil) .nil)) (.node .nil (.node (.node (.node (.leaf (.mult 8293 1691 (.ofNat 1) 0)) .nil) .nil) .nil))))) (.node (.node (.node (.node .nil (.node (.node (.node (.leaf (.trans [(9103519, .ofNat 1)] 0)) .nil) .nil) .nil)) (.node (.node (.node (.node (.leaf (.mult 12241 1772 (.ofNat 1) 0)) .nil) .nil) .nil) .nil)) (.node (.node (.node (.node (.node (.leaf (.trans [(40479949, .ofNat 1), (49959031, .ofNat 1), (52660357, .ofNat 1), (72263809, .negSucc 0)] 0)) .nil) .nil) .nil) .nil) (.node .nil (.node (.node (.node (.leaf (.mult 13553 1983 (.ofNat 1) 0)) .nil) .nil) .nil)))) (.node (.node (.node .nil (.node (.node (.node (.leaf (.mult 30047 1905 (.ofNat 1) 0)) .nil) .nil) .nil)) (.node (.node (.node (.node (.leaf (.mult 36191 1837 (.ofNat 1) 0)) .nil) .nil) .nil) (.node (.node (.node (.leaf (.mult 17987 1952 (.ofNat 1) 0)) .nil) .nil) .nil))) (.node (.node .nil (.node (.node (.node (.leaf (.trans [(8606383, .ofNat 1)] 0)) .nil) .nil) .nil)) (.node .nil (.node (.node (.node (.leaf (.mult 36899 2012 (.ofNat 1) 0)) .nil) .nil) .nil))))))

def jac264 : JTree := .node (.node (.node (.node (.node (.node .nil (.node (.node (.node (.leaf (.mult 23369 1597 (.ofNat 1) 0)) .nil) .nil) .nil)) (.node (.node (.node (.node (.leaf (.trans [(42690833, .ofNat 1)] 0)) .nil) .nil) .nil) (.node (.node (.node (.leaf (.trans [(13067737, .ofNat 1)] 0)) .nil) .nil) .nil))) (.node (.node .nil (.node (.node (.node (.leaf (.mult 30137 1928 (.ofNat 1) 0)) .nil) .nil) .nil)) (.node (.node (.node (.node (.leaf (.mult 11197 1817 (.ofNat 1) 0)) .nil) .nil) .nil) (.node (.node (.node (.leaf (.mult 15559 1708 (.ofNat 1) 0)) .nil) .nil) .nil)))) (.node (.node (.node .nil (.node (.node (.node (.leaf (.mult 24001 1895 (.ofNat 1) 0)) .nil) .nil) .nil)) (.node (.node (.node (.node (.leaf (.mult 8387 1799 (.ofNat 1) 0)) .nil) .nil) .nil) (.node (.node (.node (.leaf (.trans [(7711021, .ofNat 1)] 0)) .nil) .nil) .nil))) (.node (.node .nil (.node (.node (.node (.leaf (.mult 36709 1971 (.ofNat 1) 0)) .nil) .nil) .nil)) (.node .nil (.node (.node (.node (.leaf (.mult 17681 1712 (.ofNat 1) 0)) .nil) .nil) .nil))))) (.node (.node (.node (.node .nil (.node (.node (.node (.leaf (.mult 36263 1853 (.ofNat 1) 0)) .nil) .nil) .nil)) (.node (.node (.node (.node (.leaf (.trans [(44731829, .ofNat 1)] 0)) .nil) .nil) .nil) .nil)) (.node .nil (.node .nil (.node (.node (.node (.leaf (.mult 36761 1982 (.ofNat 1) 0)) .nil) .nil) .nil)))) (.node (.node (.node .nil (.node (.node (.node (.leaf (.mult 36637 1945 (.ofNat 1) 0)) .nil) .nil) .nil)) (.node (.node (.node (.node (.leaf (.mult 13513 1826 (.ofNat 1) 0)) .nil) .nil) .nil) (.node (.node (.node (.leaf (.mult 17909 1803 (.ofNat 1) 0)) .nil) .nil) .nil))) (.node (.node (.node (.node (.node (.leaf (.mult 14851 1035 (.ofNat 1) 0)) .nil) .nil) .nil) (.node (.node (.node (.leaf (.mult 36793 1993 (.ofNat 1) 0)) .nil) .nil) .nil)) (.node (.node (.node (.node (.leaf (.mult 28843 1042 (.ofNat 1) 0)) .nil) .nil) .nil) (.node (.node (.node (.leaf (.mult 34763 4850 (.ofNat 1) 0)) .nil) .nil) .nil)))))) (.node (.node (.node (.node (.node .nil (.node (.node (.node (.leaf (.mult 4937 1475 (.ofNat 1) 0)) .nil) .nil) .nil)) (.node (.node (.node (.node (.leaf (.mult 17737 1744 (.ofNat 1) 0)) .nil) .nil) .nil) (.node (.node (.node (.leaf (.mult 17747 1745 (.ofNat 1) 0)) .nil) .nil) .nil))) .nil) (.node (.node (.node .nil (.node (.node (.node (.leaf (.mult 29959 1875 (.ofNat 1) 0)) .nil) .nil) .nil)) (.node (.node (.node (.node (.leaf (.mult 8377 1798 (.ofNat 1) 0)) .nil) .nil) .nil) (.node (.node (.node (.leaf (.trans [(5280839, .ofNat 1)] 0)) .nil) .nil) .nil))) (.node (.node .nil (.node (.node (.node (.leaf (.mult 36739 1975 (.ofNat 1) 0)) .nil) .nil) .nil)) (.node .nil (.node (.node (.node (.leaf (.mult 15671 2042 (.ofNat 1) 0)) (.leaf (.mult 15473 1479 (.ofNat 1) 0))) .nil) .nil))))) (.node (.node (.node (.node .nil (.node (.node (.node (.leaf (.mult 29947 1866 (.ofNat 1) 0)) .nil) .nil) .nil)) (.node (.node (.node (.node (.leaf (.mult 17789 1760 (.ofNat 1) 0)) .nil) .nil) .nil) (.node (.node (.node (.leaf (.trans [(21224747, .ofNat 1)] 0)) .nil) .nil) .nil))) (.node (.node .nil (.node (.node (.node (.leaf (.mult 36691 1966 (.ofNat 1) 0)) .nil) .nil) .nil)) (.node .nil (.node (.node (.node (.leaf (.mult 35999 1718 (.ofNat 1) 0)) .nil) .nil) .nil)))) (.node (.node (.node .nil (.node (.node (.node (.leaf (.mult 15619 1913 (.ofNat 1) 0)) .nil) .nil) .nil)) (.node (.node (.node (.node (.leaf (.trans [(4959259, .ofNat 1)] 0)) .nil) .nil) .nil) .nil)) (.node .nil (.node (.node (.node (.node (.leaf (.mult 23201 1529 (.ofNat 1) 0)) .nil) .nil) .nil) (.node (.node (.node (.leaf (.mult 46073 4853 (.ofNat 1) 0)) .nil) .nil) .nil))))))

def jac265 : JTree := .node (.node (.node (.node (.node (.node (.node .nil (.node (.node (.leaf (.mult 46559 4926 (.ofNat 1) 0)) .nil) .nil)) (.node (.node (.node (.leaf (.mult 23417 1613 (.ofNat 1) 0)) .nil) .nil) .nil)) (.node (.node (.node (.node (.leaf (.trans [(14969, .ofNat 1), (14983, .ofNat 1)] 0)) .nil) .nil) .nil) (.node (.node (.node (.leaf (.trans [(134068889, .ofNat 1)] 0)) .nil) .nil) .nil))) (.node (.node (.node (.node (.node (.leaf (.trans [(1212359, .ofNat 1)] 0)) .nil) .nil) .nil) (.node (.node (.node (.leaf (.mult 37747 2367 (.ofNat 1) 0)) .nil) .nil) .nil)) (.node (.node (.node (.node (.leaf (.mult 7703 2278 (.ofNat 1) 0)) .nil) .nil) .nil) (.node (.node (.node (.leaf (.mult 38569 2511 (.ofNat 1) 0)) .nil) .nil) .nil)))) (.node (.node (.node (.node (.node (.node (.leaf (.trans [(2838877, .negSucc 0)] 0)) .nil) .nil) .nil) (.node (.node (.node (.leaf (.mult 24527 2315 (.ofNat 1) 0)) .nil) .nil) .nil)) (.node (.node (.node (.node (.leaf (.mult 10243 2193 (.ofNat 1) 0)) .nil) .nil) .nil) (.node (.node (.node (.leaf (.trans [(7929107, .ofNat 1)] 0)) .nil) .nil) .nil))) (.node (.node (.node (.node (.node (.leaf (.mult 10211 2063 (.negSucc 0) 0)) .nil) .nil) .nil) (.node (.node (.node (.leaf (.mult 38011 2419 (.ofNat 1) 0)) .nil) .nil) .nil)) (.node (.node (.node (.node (.leaf (.trans [(711449, .ofNat 2)] 1)) .nil) .nil) .nil) (.node (.node (.node (.leaf (.mult 13627 2107 (.ofNat 1) 0)) .nil) .nil) .nil))))) (.node (.node (.node (.node (.node (.node (.node (.leaf (.trans [(72731, .negSucc 0)] 0)) .nil) .nil) .nil) (.node (.node (.node (.leaf (.mult 3049 1540 (.negSucc 0) 0)) .nil) .nil) .nil)) (.node (.node (.node (.node (.leaf (.mult 30497 2170 (.ofNat 1) 0)) .nil) .nil) .nil) (.node (.node (.node (.leaf (.mult 30553 2202 (.ofNat 1) 0)) .nil) .nil) .nil))) (.node (.node (.node (.node (.node (.leaf (.mult 4261 2111 (.ofNat 1) 0)) .nil) .nil) .nil) (.node (.node (.node (.leaf (.mult 24763 2415 (.ofNat 1) 0)) .nil) .nil) .nil)) (.node (.node (.node (.node (.leaf (.trans [(1838467, .ofNat 1)] 0)) .nil) .nil) .nil) (.node (.node (.node (.leaf (.mult 30431 2131 (.ofNat 1) 0)) .nil) .nil) .nil)))) (.node (.node (.node (.node (.node (.node (.leaf (.mult 6473 1192 (.ofNat 1) 0)) .nil) .nil) .nil) (.node (.node (.node (.leaf (.trans [(1099289413, .negSucc 0)] 0)) .nil) .nil) .nil)) (.node (.node (.node (.node (.leaf (.mult 37357 2247 (.ofNat 1) 0)) .nil) .nil) .nil) .nil)) (.node (.node (.node (.node (.node (.leaf (.trans [(647203, .ofNat 1)] 0)) .nil) .nil) .nil) (.node (.node (.node (.leaf (.mult 30931 2432 (.ofNat 1) 0)) .nil) .nil) .nil)) (.node (.node (.node (.node (.leaf (.mult 17299 1173 (.ofNat 1) 0)) .nil) .nil) .nil) (.node (.node (.node (.leaf (.mult 38629 2519 (.ofNat 1) 0)) (.leaf (.trans [(15493, .ofNat 1)] 0))) .nil) .nil)))))) (.node (.node (.node (.node (.node .nil (.node (.node (.node (.leaf (.mult 10903 1177 (.ofNat 1) 0)) .nil) .nil) .nil)) (.node (.node (.node (.node (.leaf (.mult 11801 2146 (.ofNat 1) 0)) .nil) .nil) .nil) (.node (.node (.node (.leaf (.trans [(5603837, .ofNat 1)] 0)) .nil) .nil) .nil))) (.node (.node (.node (.node (.node (.leaf (.trans [(652129, .ofNat 1)] 0)) .nil) .nil) .nil) (.node (.node (.node (.leaf (.mult 30841 2383 (.ofNat 1) 0)) .nil) .nil) .nil)) (.node (.node (.node (.node (.leaf (.mult 13681 2263 (.ofNat 1) 0)) .nil) .nil) .nil) (.node (.node (.node (.leaf (.mult 13613 2090 (.ofNat 1) 0)) .nil) .nil) .nil)))) (.node (.node (.node (.node (.node (.node (.leaf (.mult 4019 1132 (.ofNat 1) 0)) .nil) .nil) .nil) (.node (.node (.node (.leaf (.mult 24683 2347 (.ofNat 1) 0)) .nil) .nil) .nil)) (.node (.node (.node (.node (.leaf (.mult 8623 2233 (.ofNat 1) 0)) .nil) .nil) .nil) (.node (.node (.node (.leaf (.mult 18443 2220 (.ofNat 1) 0)) .nil) .nil) .nil))) (.node (.node (.node (.node (.node (.leaf (.trans [(2016757, .ofNat 1)] 0)) .nil) .nil) .nil) (.node (.node (.node (.leaf (.mult 30871 2423 (.ofNat 1) 0)) .nil) .nil) .nil)) (.node (.node (.node (.node (.leaf (.mult 17257 1166 (.ofNat 1) 0)) .nil) .nil) .nil) (.node (.node (.node (.leaf (.mult 38197 2446 (.ofNat 1) 0)) .nil) .nil) .nil))))) (.node (.node (.node (.node (.node (.node (.node (.leaf (.mult 883 1156 (.ofNat 1) 0)) .nil) .nil) .nil) (.node (.node (.node (.leaf (.mult 18503 2299 (.negSucc 0) 0)) .nil) .nil) .nil)) (.node (.node (.node (.node (.leaf (.mult 7001 2181 (.ofNat 1) 0)) .nil) .nil) .nil) (.node (.node (.node (.leaf (.trans [(13948271, .ofNat 1)] 0)) .nil) .nil) .nil))) (.node (.node (.node (.node (.node (.leaf (.trans [(2862479, .ofNat 1)] 0)) .nil) .nil) .nil) (.node (.node (.node (.leaf (.mult 37991 2413 (.ofNat 1) 0)) .nil) .nil) .nil)) (.node (.node (.node (.node (.leaf (.trans [(9039127, .ofNat 2)] 1)) .nil) .nil) .nil) (.node (.node (.node (.leaf (.mult 18583 2404 (.ofNat 1) 0)) .nil) .nil) .nil)))) (.node (.node (.node (.node (.node (.node (.leaf (.trans [(1553779, .ofNat 1)] 0)) .nil) .nil) .nil) (.node (.node (.node (.leaf (.mult 37957 2396 (.ofNat 1) 0)) .nil) .nil) .nil)) (.node (.node (.node (.node (.leaf (.mult 15749 2271 (.ofNat 1) 0)) .nil) .nil) .nil) (.node (.node (.node (.leaf (.mult 38501 2500 (.ofNat 1) 0)) .nil) .nil) .nil))) (.node (.node (.node (.node (.node (.leaf (.mult 17189 1082 (.ofNat 1) 0)) .nil) .nil) .nil) (.node (.node (.node (.leaf (.mult 24793 2453 (.ofNat 1) 0)) .nil) .nil) .nil)) (.node (.node (.node (.node (.leaf (.mult 6967 1117 (.ofNat 1) 0)) .nil) .nil) .nil) (.node (.node (.node (.leaf (.mult 46103 4861 (.ofNat 1) 0)) .nil) .nil) .nil))))))

def jac266 : JTree := .node (.node (.node (.node (.node (.node (.node .nil (.node (.node (.leaf (.mult 46589 4930 (.negSucc 0) 0)) .nil) .nil)) (.node (.node (.node (.leaf (.mult 29429 1488 (.ofNat 1) 0)) .nil) .nil) .nil)) (.node (.node (.node (.node (.leaf (.trans [(17231, .ofNat 1), (17239, .negSucc 0)] 0)) .nil) .nil) .nil) (.node (.node (.node (.leaf (.mult 18143 2094 (.negSucc 0) 0)) .nil) .nil) .nil))) (.node (.node (.node (.node (.node (.leaf (.trans [(115536053, .ofNat 1)] 0)) .nil) .nil) .nil) (.node (.node (.node (.leaf (.mult 30809 2375 (.ofNat 1) 0)) .nil) .nil) .nil)) (.node (.node (.node (.node (.leaf (.mult 24413 2253 (.ofNat 1) 0)) .nil) .nil) .nil) (.node (.node (.node (.leaf (.mult 38603 2514 (.ofNat 1) 0)) .nil) .nil) .nil)))) (.node (.node (.node (.node (.node (.node (.leaf (.trans [(140579, .negSucc 0)] 0)) .nil) .nil) .nil) (.node (.node (.node (.leaf (.mult 5309 2323 (.ofNat 2) 1)) .nil) .nil) .nil)) (.node (.node (.node (.node (.leaf (.mult 12289 2212 (.ofNat 1) 0)) .nil) .nil) .nil) (.node (.node (.node (.leaf (.trans [(22958727283, .ofNat 1), (33339593051, .negSucc 0)] 0)) .nil) .nil) .nil))) (.node .nil (.node (.node (.node (.node (.leaf (.mult 13187 1178 (.ofNat 1) 0)) .nil) .nil) .nil) (.node (.node (.node (.leaf (.mult 38593 2512 (.ofNat 1) 0)) .nil) .nil) .nil))))) (.node (.node (.node (.node (.node (.node (.node (.leaf (.trans [(711449, .ofNat 2)] 1)) .nil) .nil) .nil) (.node (.node (.node (.leaf (.mult 37663 2355 (.ofNat 1) 0)) .nil) .nil) .nil)) (.node (.node (.node (.node (.leaf (.trans [(56406341, .negSucc 0)] 0)) .nil) .nil) .nil) (.node (.node (.node (.leaf (.trans [(2710171, .ofNat 1)] 0)) .nil) .nil) .nil))) (.node (.node (.node (.node (.node (.leaf (.trans [(582919, .ofNat 1)] 0)) .nil) .nil) .nil) .nil) (.node (.node (.node (.node (.leaf (.mult 28879 1091 (.ofNat 2) 1)) .nil) .nil) .nil) (.node (.node (.node (.leaf (.mult 24121 2100 (.ofNat 1) 0)) .nil) .nil) .nil)))) (.node (.node (.node .nil (.node (.node (.node (.leaf (.mult 37591 2333 (.ofNat 1) 0)) .nil) .nil) .nil)) (.node .nil (.node (.node (.node (.leaf (.trans [(5424707, .ofNat 1)] 0)) .nil) .nil) .nil))) (.node (.node (.node (.node (.node (.leaf (.mult 14887 1068 (.ofNat 1) 0)) .nil) .nil) .nil) (.node (.node (.node (.leaf (.mult 37993 2416 (.ofNat 1) 0)) .nil) .nil) .nil)) (.node (.node (.node (.node (.leaf (.mult 35677 1617 (.ofNat 1) 0)) .nil) .nil) .nil) (.node (.node (.node (.leaf (.mult 38611 2517 (.ofNat 1) 0)) (.leaf (.mult 2389 1625 (.ofNat 1) 0))) .nil) .nil)))))) (.node (.node (.node (.node (.node .nil (.node (.node (.node (.leaf (.mult 23311 1575 (.ofNat 1) 0)) .nil) .nil) .nil)) (.node (.node (.node (.node (.leaf (.mult 11243 2150 (.ofNat 1) 0)) .nil) .nil) .nil) (.node (.node (.node (.leaf (.trans [(13863497, .ofNat 1)] 0)) .nil) .nil) .nil))) (.node (.node (.node (.node (.node (.leaf (.trans [(325529, .ofNat 1)] 0)) .nil) .nil) .nil) (.node (.node (.node (.leaf (.mult 15773 2391 (.ofNat 1) 0)) .nil) .nil) .nil)) (.node .nil (.node (.node (.node (.leaf (.mult 24151 2132 (.ofNat 1) 0)) .nil) .nil) .nil)))) (.node (.node (.node (.node (.node (.node (.leaf (.mult 5471 1078 (.ofNat 1) 0)) .nil) .nil) .nil) (.node (.node (.node (.leaf (.mult 24631 2339 (.ofNat 1) 0)) .nil) .nil) .nil)) (.node (.node (.node (.node (.leaf (.mult 37337 2238 (.ofNat 1) 0)) .nil) .nil) .nil) (.node (.node (.node (.leaf (.trans [(1543757521, .ofNat 1)] 0)) .nil) .nil) .nil))) (.node (.node (.node (.node (.node (.leaf (.trans [(8467, .ofNat 1), (2366363, .negSucc 0)] 0)) .nil) .nil) .nil) (.node (.node (.node (.leaf (.mult 30941 2458 (.ofNat 1) 0)) .nil) .nil) .nil)) (.node (.node (.node (.node (.leaf (.mult 17317 1176 (.ofNat 1) 0)) .nil) .nil) .nil) (.node (.node (.node (.leaf (.mult 18743 2498 (.ofNat 1) 0)) .nil) .nil) .nil))))) (.node (.node (.node (.node .nil (.node (.node (.node (.leaf (.mult 18517 2307 (.ofNat 1) 0)) .nil) .nil) .nil)) (.node (.node (.node (.node (.leaf (.mult 15733 2199 (.ofNat 1) 0)) .nil) .nil) .nil) (.node (.node (.node (.leaf (.mult 18257 2124 (.ofNat 2) 0)) .nil) .nil) .nil))) (.node (.node (.node (.node (.node (.leaf (.mult 7331 2243 (.ofNat 1) 0)) .nil) .nil) .nil) .nil) (.node (.node (.node (.node (.leaf (.mult 22727 1101 (.ofNat 2) 1)) .nil) .nil) .nil) (.node (.node (.node (.leaf (.mult 18679 2412 (.ofNat 1) 0)) .nil) .nil) .nil)))) (.node (.node (.node (.node (.node (.node (.leaf (.trans [(21344789, .negSucc 0)] 0)) .nil) .nil) .nil) (.node (.node (.node (.leaf (.mult 30713 2359 (.negSucc 1) 1)) .nil) .nil) .nil)) (.node (.node (.node (.node (.leaf (.trans [(3146291, .ofNat 1)] 0)) .nil) .nil) .nil) (.node (.node (.node (.leaf (.mult 18637 2409 (.ofNat 1) 0)) .nil) .nil) .nil))) (.node (.node (.node (.node (.node (.leaf (.mult 17207 1129 (.ofNat 1) 0)) .nil) .nil) .nil) (.node (.node (.node (.leaf (.trans [(267846869, .ofNat 1), (294449269, .negSucc 0)] 0)) .nil) .nil) .nil)) (.node (.node (.node (.node (.leaf (.mult 22751 1150 (.ofNat 1) 0)) .nil) .nil) .nil) (.node (.node (.node (.leaf (.mult 34849 4864 (.ofNat 1) 0)) .nil) .nil) .nil))))))

def jac267 : JTree := .node (.node (.node (.node (.node (.node (.node (.node (.node (.leaf (.trans [(251, .ofNat 1)] 0)) .nil) .nil) (.node (.node (.leaf (.mult 46573 4929 (.ofNat 1) 0)) .nil) .nil)) .nil) (.node (.node (.node (.node (.leaf (.trans [(15073, .ofNat 1), (15077, .ofNat 1)] 0)) .nil) .nil) .nil) (.node (.node (.node (.leaf (.mult 30367 2097 (.negSucc 0) 0)) .nil) .nil) .nil))) (.node (.node (.node (.node (.node (.leaf (.trans [(1772543, .ofNat 2)] 0)) .nil) .nil) .nil) (.node (.node (.node (.leaf (.mult 15767 2371 (.ofNat 1) 0)) .nil) .nil) .nil)) (.node (.node (.node (.node (.leaf (.trans [(17665469, .ofNat 1)] 0)) .nil) .nil) .nil) (.node (.node (.node (.leaf (.mult 18211 2110 (.ofNat 1) 0)) .nil) .nil) .nil)))) (.node (.node (.node (.node (.node (.node (.leaf (.trans [(180157, .negSucc 0)] 0)) .nil) .nil) .nil) (.node (.node (.node (.leaf (.mult 8641 2320 (.ofNat 1) 0)) .nil) .nil) .nil)) (.node (.node (.node (.node (.leaf (.mult 24329 2211 (.ofNat 1) 0)) .nil) .nil) .nil) (.node (.node (.node (.leaf (.trans [(2363173, .ofNat 1)] 0)) .nil) .nil) .nil))) (.node (.node (.node (.node (.node (.leaf (.mult 37087 2073 (.ofNat 1) 0)) .nil) .nil) .nil) (.node (.node (.node (.leaf (.mult 38371 2482 (.ofNat 1) 0)) .nil) .nil) .nil)) (.node (.node (.node (.node (.leaf (.mult 13163 1107 (.ofNat 1) 0)) .nil) .nil) .nil) (.node (.node (.node (.leaf (.mult 13619 2103 (.ofNat 1) 0)) .nil) .nil) .nil))))) (.node (.node (.node (.node (.node (.node (.node (.leaf (.trans [(3639, .ofNat 2)] 1)) .nil) .nil) .nil) (.node (.node (.node (.leaf (.mult 3191 1577 (.negSucc 0) 0)) .nil) .nil) .nil)) (.node (.node (.node (.node (.leaf (.mult 6247 2195 (.ofNat 1) 0)) .nil) .nil) .nil) (.node (.node (.node (.leaf (.trans [(5303699, .ofNat 1)] 0)) .nil) .nil) .nil))) (.node (.node (.node (.node (.node (.leaf (.trans [(325529, .ofNat 1), (414229, .ofNat 1)] 0)) .nil) .nil) .nil) (.node (.node (.node (.leaf (.mult 30937 2449 (.ofNat 1) 0)) .nil) .nil) .nil)) (.node (.node (.node (.node (.leaf (.mult 13121 1094 (.negSucc 1) 1)) .nil) .nil) .nil) (.node (.node (.node (.leaf (.mult 30389 2104 (.ofNat 1) 0)) .nil) .nil) .nil)))) (.node (.node (.node .nil (.node (.node (.node (.leaf (.mult 24551 2329 (.ofNat 1) 0)) .nil) .nil) .nil)) (.node (.node (.node (.node (.leaf (.trans [(423971, .ofNat 1)] 0)) .nil) .nil) .nil) (.node (.node (.node (.leaf (.trans [(17209271, .ofNat 1)] 0)) .nil) .nil) .nil))) (.node (.node .nil (.node (.node (.node (.leaf (.mult 38447 2490 (.ofNat 1) 0)) .nil) .nil) .nil)) (.node (.node (.node (.node (.leaf (.mult 17293 1169 (.ofNat 1) 0)) .nil) .nil) .nil) (.node (.node (.node (.leaf (.mult 38609 2516 (.ofNat 1) 0)) (.leaf (.mult 757 1578 (.ofNat 1) 0))) .nil) .nil)))))) (.node (.node (.node (.node (.node .nil (.node (.node (.node (.leaf (.mult 23399 1612 (.ofNat 1) 0)) .nil) .nil) .nil)) (.node (.node (.node (.node (.leaf (.trans [(26129447, .negSucc 0)] 0)) .nil) .nil) .nil) (.node (.node (.node (.leaf (.trans [(2099843, .ofNat 1)] 0)) .nil) .nil) .nil))) (.node (.node (.node (.node (.node (.leaf (.mult 4013 1074 (.negSucc 0) 0)) .nil) .nil) .nil) (.node (.node (.node (.leaf (.mult 37861 2387 (.negSucc 0) 0)) .nil) .nil) .nil)) (.node .nil (.node (.node (.node (.leaf (.mult 13597 2087 (.ofNat 1) 0)) .nil) .nil) .nil)))) (.node (.node (.node .nil (.node (.node (.node (.leaf (.mult 30689 2337 (.ofNat 1) 0)) .nil) .nil) .nil)) (.node (.node (.node (.node (.leaf (.mult 37253 2222 (.ofNat 1) 0)) .nil) .nil) .nil) (.node (.node (.node (.leaf (.mult 30557 2234 (.ofNat 1) 0)) .nil) .nil) .nil))) (.node (.node (.node (.node (.node (.leaf (.trans [(7699, .ofNat 1), (9767, .ofNat 1)] 0)) .nil) .nil) .nil) (.node (.node (.node (.leaf (.mult 38431 2488 (.ofNat 1) 0)) .nil) .nil) .nil)) (.node (.node (.node (.node (.leaf (.mult 15101 1184 (.ofNat 1) 0)) .nil) .nil) .nil) (.node (.node (.node (.leaf (.mult 18701 2447 (.ofNat 1) 0)) .nil) .nil) .nil))))) (.node (.node (.node (.node (.node (.node (.node (.leaf (.trans [(21310183, .negSucc 0)] 0)) .nil) .nil) .nil) (.node (.node (.node (.leaf (.mult 37529 2303 (.negSucc 0) 0)) .nil) .nil) .nil)) (.node (.node (.node (.node (.leaf (.mult 7001 2181 (.negSucc 0) 0)) .nil) .nil) .nil) (.node (.node (.node (.leaf (.trans [(2704787, .ofNat 1)] 0)) .nil) .nil) .nil))) (.node (.node (.node (.node (.node (.leaf (.mult 24097 2069 (.ofNat 1) 0)) .nil) .nil) .nil) (.node (.node (.node (.leaf (.mult 38201 2448 (.ofNat 1) 0)) .nil) .nil) .nil)) (.node (.node (.node (.node (.leaf (.mult 22741 1111 (.negSucc 1) 1)) .nil) .nil) .nil) (.node (.node (.node (.leaf (.mult 37463 2290 (.ofNat 1) 0)) .nil) .nil) .nil)))) (.node (.node (.node (.node (.node (.node (.leaf (.mult 4723 2051 (.ofNat 1) 0)) .nil) .nil) .nil) (.node (.node (.node (.leaf (.mult 18539 2399 (.ofNat 1) 0)) .nil) .nil) .nil)) (.node (.node (.node (.node (.leaf (.mult 5087 2275 (.ofNat 1) 0)) .nil) .nil) .nil) (.node (.node (.node (.leaf (.mult 38167 2439 (.ofNat 1) 0)) .nil) .nil) .nil))) (.node (.node (.node (.node (.node (.leaf (.mult 15077 1165 (.ofNat 1) 0)) .nil) .nil) .nil) (.node (.node (.node (.leaf (.mult 18749 2499 (.negSucc 0) 0)) .nil) .nil) .nil)) (.node .nil (.node (.node (.node (.leaf (.mult 31019 2469 (.ofNat 1) 0)) .nil) .nil) .nil))))))

def jac268 : JTree := .node (.node (.node (.node (.node (.node .nil (.node (.node (.node (.leaf (.mult 29573 1535 (.ofNat 1) 0)) .nil) .nil) .nil)) (.node (.node (.node (.node (.leaf (.mult 3853 2142 (.ofNat 1) 0)) .nil) .nil) .nil) (.node (.node (.node (.leaf (.mult 30491 2155 (.ofNat 1) 0)) .nil) .nil) .nil))) (.node (.node (.node (.node (.node (.leaf (.trans [(546037, .ofNat 1)] 0)) .nil) .nil) .nil) (.node (.node (.node (.leaf (.mult 37831 2379 (.ofNat 1) 0)) .nil) .nil) .nil)) (.node (.node (.node (.node (.leaf (.mult 37379 2262 (.ofNat 1) 0)) .nil) .nil) .nil) (.node (.node (.node (.leaf (.mult 38461 2497 (.ofNat 1) 0)) .nil) .nil) .nil)))) (.node (.node (.node (.node (.node (.node (.leaf (.mult 887 1153 (.ofNat 1) 0)) .nil) .nil) .nil) (.node (.node (.node (.leaf (.mult 30703 2345 (.ofNat 1) 0)) .nil) .nil) .nil)) (.node (.node (.node (.node (.leaf (.mult 24337 2215 (.ofNat 1) 0)) .nil) .nil) .nil) (.node (.node (.node (.leaf (.trans [(2788139, .ofNat 1)] 0)) .nil) .nil) .nil))) (.node (.node (.node (.node (.node (.leaf (.trans [(2366363, .ofNat 1)] 0)) .nil) .nil) .nil) (.node (.node (.node (.leaf (.mult 30893 2425 (.ofNat 1) 0)) .nil) .nil) .nil)) (.node (.node (.node (.node (.leaf (.mult 17183 1065 (.ofNat 1) 0)) .nil) .nil) .nil) (.node (.node (.node (.leaf (.mult 18217 2113 (.ofNat 1) 0)) .nil) .nil) .nil))))) (.node (.node (.node (.node .nil (.node (.node (.node (.leaf (.mult 37493 2295 (.ofNat 1) 0)) .nil) .nil) .nil)) (.node (.node (.node (.node (.leaf (.mult 5591 2175 (.ofNat 1) 0)) .nil) .nil) .nil) (.node (.node (.node (.leaf (.trans [(6561077, .ofNat 1)] 0)) .nil) .nil) .nil))) (.node (.node (.node (.node (.node (.leaf (.trans [(1821629, .ofNat 1)] 0)) .nil) .nil) .nil) .nil) (.node (.node (.node (.node (.leaf (.mult 28901 1096 (.ofNat 2) 1)) .nil) .nil) .nil) (.node (.node (.node (.leaf (.mult 18493 2292 (.ofNat 1) 0)) .nil) .nil) .nil)))) (.node (.node (.node (.node (.node (.node (.leaf (.mult 4157 2066 (.ofNat 1) 0)) .nil) .nil) .nil) (.node (.node (.node (.leaf (.mult 18521 2354 (.ofNat 1) 0)) .nil) .nil) .nil)) (.node (.node (.node (.node (.leaf (.mult 37409 2270 (.ofNat 1) 0)) .nil) .nil) .nil) (.node (.node (.node (.leaf (.trans [(7109719, .ofNat 1)] 0)) .nil) .nil) .nil))) (.node (.node (.node (.node (.node (.leaf (.mult 15073 1162 (.ofNat 1) 0)) .nil) .nil) .nil) (.node (.node (.node (.leaf (.mult 38333 2479 (.ofNat 1) 0)) .nil) .nil) .nil)) (.node (.node (.node (.node (.leaf (.mult 22783 1172 (.ofNat 1) 0)) .nil) .nil) .nil) (.node (.node (.node (.leaf (.mult 30467 2140 (.ofNat 1) 0)) (.leaf (.trans [(46153, .ofNat 1)] 0))) .nil) .nil)))))) (.node (.node (.node (.node (.node (.node (.node (.node (.leaf (.trans [(67519, .ofNat 1), (98431, .ofNat 1)] 0)) .nil) .nil) .nil) (.node (.node (.node (.leaf (.mult 3677 1196 (.negSucc 0) 0)) .nil) .nil) .nil)) (.node (.node (.node (.node (.leaf (.mult 24197 2165 (.ofNat 1) 0)) .nil) .nil) .nil) (.node (.node (.node (.leaf (.trans [(17905231, .ofNat 1)] 0)) .nil) .nil) .nil))) (.node (.node (.node (.node (.node (.leaf (.trans [(431537, .ofNat 1)] 0)) .nil) .nil) .nil) (.node (.node (.node (.leaf (.mult 18553 2403 (.ofNat 1) 0)) .nil) .nil) .nil)) (.node (.node (.node (.node (.leaf (.trans [(1715939, .ofNat 1)] 0)) .nil) .nil) .nil) (.node (.node (.node (.leaf (.mult 24133 2105 (.ofNat 1) 0)) .nil) .nil) .nil)))) (.node (.node (.node (.node (.node (.node (.leaf (.mult 5477 1138 (.ofNat 1) 0)) .nil) .nil) .nil) (.node (.node (.node (.leaf (.mult 37573 2319 (.ofNat 1) 0)) .nil) .nil) .nil)) (.node (.node (.node (.node (.leaf (.mult 37309 2227 (.ofNat 1) 0)) .nil) .nil) .nil) (.node (.node (.node (.leaf (.trans [(2835083, .ofNat 1)] 0)) .nil) .nil) .nil))) (.node (.node .nil (.node (.node (.node (.leaf (.mult 38281 2461 (.ofNat 1) 0)) .nil) .nil) .nil)) (.node (.node (.node (.node (.leaf (.mult 9679 1113 (.ofNat 1) 0)) .nil) .nil) .nil) (.node (.node (.node (.leaf (.trans [(18743, .ofNat 1), (18749, .ofNat 1)] 0)) .nil) .nil) .nil))))) (.node (.node (.node (.node (.node (.node (.node (.leaf (.mult 7583 1062 (.ofNat 1) 0)) .nil) .nil) .nil) (.node (.node (.node (.leaf (.mult 24517 2311 (.ofNat 1) 0)) .nil) .nil) .nil)) (.node (.node (.node (.node (.leaf (.mult 37243 2190 (.ofNat 1) 0)) .nil) .nil) .nil) (.node (.node (.node (.leaf (.mult 18427 2207 (.ofNat 1) 0)) .nil) .nil) .nil))) (.node (.node (.node (.node (.node (.leaf (.mult 10177 2048 (.negSucc 0) 0)) .nil) .nil) .nil) (.node (.node (.node (.leaf (.mult 38273 2457 (.ofNat 1) 0)) .nil) .nil) .nil)) (.node (.node (.node (.node (.leaf (.trans [(7110421, .ofNat 2)] 1)) .nil) .nil) .nil) (.node (.node (.node (.leaf (.mult 37117 2079 (.ofNat 1) 0)) .nil) .nil) .nil)))) (.node (.node (.node (.node (.node (.node (.leaf (.trans [(81469, .negSucc 0)] 0)) .nil) .nil) .nil) (.node (.node (.node (.leaf (.mult 30757 2363 (.ofNat 1) 0)) .nil) .nil) .nil)) (.node (.node (.node (.node (.leaf (.mult 11261 2280 (.ofNat 1) 0)) .nil) .nil) .nil) (.node (.node (.node (.leaf (.mult 37123 2092 (.ofNat 1) 0)) .nil) .nil) .nil))) (.node (.node (.node (.node (.node (.leaf (.mult 14983 1131 (.ofNat 1) 0)) .nil) .nil) .nil) (.node (.node (.node (.leaf (.mult 18181 2098 (.negSucc 0) 0)) .nil) .nil) .nil)) (.node (.node (.node (.node (.leaf (.mult 12197 1481 (.ofNat 1) 0)) .nil) .nil) .nil) (.node (.node (.node (.leaf (.mult 46567 4928 (.ofNat 1) 0)) .nil) .nil) .nil))))))

def jac269 : JTree := .node (.node (.node (.node (.node (.node (.node .nil (.node (.node (.leaf (.mult 38459 2496 (.ofNat 1) 0)) .nil) .nil)) .nil) (.node (.node (.node (.node (.leaf (.trans [(3041, .ofNat 1), (11777, .ofNat 1)] 0)) .nil) .nil) .nil) (.node (.node (.node (.leaf (.trans [(1166443, .ofNat 1)] 0)) .nil) .nil) .nil))) (.node (.node (.node (.node (.node (.leaf (.mult 7687 2083 (.negSucc 0) 0)) .nil) .nil) .nil) (.node (.node (.node (.leaf (.mult 37781 2370 (.ofNat 1) 0)) .nil) .nil) .nil)) (.node (.node (.node (.node (.leaf (.mult 11257 2274 (.ofNat 1) 0)) .nil) .nil) .nil) (.node (.node (.node (.leaf (.mult 37159 2117 (.ofNat 1) 0)) .nil) .nil) .nil)))) (.node (.node (.node (.node (.node (.node (.leaf (.trans [(67519, .negSucc 0), (98431, .negSucc 0)] 0)) .nil) .nil) .nil) (.node (.node (.node (.leaf (.mult 37567 2317 (.ofNat 1) 0)) .nil) .nil) .nil)) (.node (.node (.node (.node (.leaf (.mult 18433 2213 (.ofNat 1) 0)) .nil) .nil) .nil) (.node (.node (.node (.leaf (.trans [(2361449, .ofNat 1)] 0)) .nil) .nil) .nil))) (.node (.node (.node (.node (.node (.leaf (.mult 9769 2264 (.ofNat 1) 0)) .nil) .nil) .nil) (.node (.node (.node (.leaf (.mult 38377 2483 (.ofNat 1) 0)) .nil) .nil) .nil)) (.node (.node (.node (.node (.leaf (.mult 35491 1089 (.ofNat 1) 0)) .nil) .nil) .nil) (.node (.node (.node (.leaf (.mult 38327 2473 (.ofNat 1) 0)) .nil) .nil) .nil))))) (.node (.node (.node (.node (.node (.node (.node (.leaf (.mult 3137 1069 (.ofNat 1) 0)) .nil) .nil) .nil) (.node (.node (.node (.leaf (.mult 3061 1542 (.negSucc 0) 0)) .nil) .nil) .nil)) (.node (.node (.node (.node (.leaf (.mult 30509 2171 (.ofNat 1) 0)) .nil) .nil) .nil) (.node (.node (.node (.leaf (.trans [(11117291, .ofNat 1)] 0)) .nil) .nil) .nil))) (.node (.node (.node (.node (.node (.leaf (.mult 4391 2273 (.ofNat 1) 0)) .nil) .nil) .nil) (.node (.node (.node (.leaf (.mult 49033 2475 (.ofNat 1) 0)) .nil) .nil) .nil)) (.node (.node (.node (.node (.leaf (.mult 13109 1090 (.negSucc 1) 1)) .nil) .nil) .nil) (.node (.node (.node (.leaf (.mult 30427 2126 (.ofNat 1) 0)) .nil) .nil) .nil)))) (.node (.node (.node .nil (.node (.node (.node (.leaf (.mult 30671 2326 (.ofNat 1) 0)) .nil) .nil) .nil)) (.node (.node (.node (.node (.leaf (.mult 18461 2244 (.negSucc 0) 0)) .nil) .nil) .nil) (.node (.node (.node (.leaf (.trans [(3362789, .ofNat 1)] 0)) .nil) .nil) .nil))) (.node (.node (.node (.node (.node (.leaf (.trans [(36697957, .ofNat 1)] 0)) .nil) .nil) .nil) (.node (.node (.node (.leaf (.mult 38449 2491 (.ofNat 1) 0)) .nil) .nil) .nil)) (.node (.node (.node (.node (.leaf (.mult 8287 1179 (.ofNat 1) 0)) .nil) .nil) .nil) (.node (.node (.node (.leaf (.mult 38567 2510 (.ofNat 1) 0)) (.leaf (.trans [(1447, .ofNat 1)] 0))) .nil) .nil)))))) (.node (.node (.node (.node (.node .nil (.node (.node (.node (.leaf (.mult 35603 1611 (.ofNat 1) 0)) .nil) .nil) .nil)) (.node (.node (.node (.node (.leaf (.mult 15727 2156 (.ofNat 1) 0)) .nil) .nil) .nil) (.node (.node (.node (.leaf (.trans [(312565223, .ofNat 1)] 0)) .nil) .nil) .nil))) (.node (.node (.node (.node (.node (.leaf (.mult 3037 1081 (.ofNat 1) 0)) .nil) .nil) .nil) (.node (.node (.node (.leaf (.mult 30851 2385 (.ofNat 1) 0)) .nil) .nil) .nil)) (.node .nil (.node (.node (.node (.leaf (.mult 24107 2080 (.ofNat 1) 0)) .nil) .nil) .nil)))) (.node (.node (.node (.node (.node (.node (.leaf (.trans [(19341809, .ofNat 1), (28087273, .negSucc 0)] 0)) .nil) .nil) .nil) (.node (.node (.node (.leaf (.mult 37643 2349 (.ofNat 1) 0)) .nil) .nil) .nil)) (.node .nil (.node (.node (.node (.leaf (.mult 12301 2214 (.ofNat 1) 0)) .nil) .nil) .nil))) (.node (.node (.node (.node (.node (.leaf (.trans [(6991, .ofNat 2), (2016757, .ofNat 1)] 0)) .nil) .nil) .nil) (.node (.node (.node (.leaf (.mult 31051 2484 (.ofNat 1) 0)) .nil) .nil) .nil)) (.node (.node (.node (.node (.leaf (.mult 10889 1118 (.ofNat 1) 0)) .nil) .nil) .nil) (.node (.node (.node (.leaf (.mult 8537 2121 (.ofNat 1) 0)) .nil) .nil) .nil))))) (.node (.node (.node (.node (.node (.node (.node (.leaf (.trans [(20858377, .negSucc 0)] 0)) .nil) .nil) .nil) (.node (.node (.node (.leaf (.mult 37547 2305 (.ofNat 1) 0)) .nil) .nil) .nil)) (.node (.node (.node (.node (.leaf (.mult 7691 2182 (.ofNat 1) 0)) .nil) .nil) .nil) (.node (.node (.node (.leaf (.trans [(2579609, .ofNat 1)] 0)) .nil) .nil) .nil))) (.node (.node (.node (.node (.node (.leaf (.trans [(162309401, .ofNat 1)] 0)) .nil) .nil) .nil) .nil) (.node (.node (.node (.node (.leaf (.trans [(9046013, .ofNat 2)] 1)) .nil) .nil) .nil) (.node (.node (.node (.leaf (.mult 18593 2407 (.ofNat 1) 0)) .nil) .nil) .nil)))) (.node (.node (.node (.node (.node (.node (.leaf (.mult 2609 2052 (.ofNat 1) 0)) .nil) .nil) .nil) (.node (.node (.node (.leaf (.mult 37907 2394 (.ofNat 1) 0)) .nil) .nil) .nil)) (.node (.node (.node (.node (.leaf (.trans [(3605023, .ofNat 1)] 0)) .nil) .nil) .nil) (.node (.node (.node (.leaf (.mult 37987 2401 (.ofNat 1) 0)) .nil) .nil) .nil))) (.node (.node (.node (.node (.node (.leaf (.mult 17231 1154 (.ofNat 1) 0)) .nil) .nil) .nil) (.node (.node (.node (.leaf (.mult 18731 2495 (.ofNat 1) 0)) .nil) .nil) .nil)) (.node (.node (.node (.node (.leaf (.mult 29021 1147 (.ofNat 1) 0)) .nil) .nil) .nil) (.node (.node (.node (.leaf (.mult 46549 4925 (.ofNat 1) 0)) .nil) .nil) .nil))))))

def jac270 : JTree := .node (.node (.node (.node (.node (.node .nil (.node (.node (.node (.leaf (.trans [(2296031, .negSucc 1)] 1)) .nil) .nil) .nil)) (.node (.node (.node (.node (.leaf (.mult 4729 2151 (.ofNat 1) 0)) .nil) .nil) .nil) (.node (.node (.node (.leaf (.mult 24181 2160 (.ofNat 1) 0)) .nil) .nil) .nil))) (.node (.node (.node (.node (.node (.leaf (.mult 8521 2084 (.ofNat 1) 0)) .nil) .nil) .nil) (.node (.node (.node (.leaf (.mult 37811 2376 (.ofNat 1) 0)) .nil) .nil) .nil)) (.node (.node (.node (.node (.leaf (.mult 37369 2261 (.ofNat 1) 0)) .nil) .nil) .nil) (.node (.node (.node (.leaf (.mult 12277 2064 (.ofNat 1) 0)) .nil) .nil) .nil)))) (.node (.node (.node (.node (.node (.node (.leaf (.mult 4021 1134 (.ofNat 1) 0)) .nil) .nil) .nil) (.node (.node (.node (.leaf (.mult 37649 2350 (.ofNat 1) 0)) .nil) .nil) .nil)) (.node (.node (.node (.node (.leaf (.mult 24359 2216 (.ofNat 1) 0)) .nil) .nil) .nil) (.node (.node (.node (.leaf (.trans [(10176151, .ofNat 1)] 0)) .nil) .nil) .nil))) (.node (.node (.node (.node (.node (.leaf (.trans [(1409277553, .ofNat 1)] 0)) .nil) .nil) .nil) .nil) (.node (.node (.node (.node (.leaf (.mult 13177 1144 (.ofNat 1) 0)) .nil) .nil) .nil) (.node (.node (.node (.leaf (.mult 18233 2119 (.ofNat 1) 0)) .nil) .nil) .nil))))) (.node (.node (.node (.node (.node (.node (.node (.leaf (.trans [(71189, .negSucc 0)] 0)) .nil) .nil) .nil) (.node (.node (.node (.leaf (.mult 24473 2293 (.ofNat 1) 0)) .nil) .nil) .nil)) (.node (.node (.node (.node (.leaf (.mult 37223 2179 (.ofNat 1) 0)) .nil) .nil) .nil) (.node (.node (.node (.leaf (.trans [(2726323, .ofNat 1)] 0)) .nil) .nil) .nil))) (.node (.node (.node (.node (.node (.leaf (.mult 18481 2250 (.ofNat 1) 0)) .nil) .nil) .nil) .nil) (.node (.node (.node (.node (.leaf (.mult 28921 1100 (.negSucc 1) 1)) .nil) .nil) .nil) (.node (.node (.node (.leaf (.mult 24443 2288 (.ofNat 1) 0)) (.leaf (.trans [(1, .ofNat 1)] 0))) .nil) .nil)))) (.node (.node (.node (.node (.node (.node (.leaf (.mult 3529 2065 (.ofNat 1) 0)) .nil) .nil) .nil) (.node (.node (.node (.leaf (.mult 24709 2352 (.ofNat 1) 0)) .nil) .nil) .nil)) (.node (.node (.node (.node (.leaf (.mult 24419 2259 (.ofNat 1) 0)) .nil) .nil) .nil) (.node (.node (.node (.leaf (.trans [(3905921, .ofNat 1)] 0)) .nil) .nil) .nil))) (.node (.node (.node (.node (.node (.leaf (.mult 14947 1119 (.negSucc 0) 0)) .nil) .nil) .nil) (.node (.node (.node (.leaf (.mult 24767 2418 (.ofNat 1) 0)) .nil) .nil) .nil)) (.node (.node (.node (.node (.leaf (.mult 22787 1174 (.ofNat 1) 0)) .nil) .nil) .nil) (.node (.node (.node (.leaf (.mult 30449 2138 (.ofNat 1) 0)) .nil) .nil) .nil)))))) (.node (.node (.node (.node (.node .nil (.node (.node (.node (.leaf (.mult 3671 1187 (.negSucc 0) 0)) .nil) .nil) .nil)) (.node (.node (.node (.node (.leaf (.mult 4729 2151 (.ofNat 1) 0)) .nil) .nil) .nil) (.node (.node (.node (.leaf (.trans [(2097930103, .negSucc 0)] 0)) .nil) .nil) .nil))) (.node (.node (.node (.node (.node (.leaf (.trans [(7098443903, .ofNat 1), (10308029191, .negSucc 0)] 0)) .nil) .nil) .nil) (.node (.node (.node (.leaf (.mult 18671 2411 (.negSucc 0) 0)) .nil) .nil) .nil)) (.node (.node (.node (.node (.leaf (.trans [(19128253, .negSucc 0), (26495309, .negSucc 0)] 0)) .nil) .nil) .nil) (.node (.node (.node (.leaf (.mult 24137 2127 (.ofNat 1) 0)) .nil) .nil) .nil)))) (.node (.node (.node (.node (.node (.node (.leaf (.trans [(1603003, .ofNat 1)] 0)) .nil) .nil) .nil) (.node (.node (.node (.leaf (.mult 37619 2341 (.ofNat 1) 0)) .nil) .nil) .nil)) (.node (.node (.node (.node (.leaf (.mult 37321 2237 (.ofNat 1) 0)) .nil) .nil) .nil) (.node (.node (.node (.leaf (.trans [(12811433, .ofNat 1)] 0)) .nil) .nil) .nil))) (.node (.node (.node (.node (.node (.leaf (.trans [(77057, .ofNat 1)] 0)) .nil) .nil) .nil) (.node (.node (.node (.leaf (.mult 30971 2460 (.ofNat 1) 0)) .nil) .nil) .nil)) (.node (.node (.node (.node (.leaf (.mult 17327 1195 (.ofNat 1) 0)) .nil) .nil) .nil) (.node (.node (.node (.leaf (.trans [(18719, .ofNat 1), (18731, .negSucc 0)] 0)) .nil) .nil) .nil))))) (.node (.node (.node (.node (.node (.node (.node (.leaf (.mult 7589 1141 (.ofNat 1) 0)) .nil) .nil) .nil) (.node (.node (.node (.leaf (.mult 30637 2309 (.ofNat 1) 0)) .nil) .nil) .nil)) (.node (.node (.node (.node (.leaf (.mult 8573 2201 (.ofNat 1) 0)) .nil) .nil) .nil) (.node (.node (.node (.leaf (.trans [(14432387, .ofNat 1)] 0)) .nil) .nil) .nil))) (.node (.node (.node (.node (.node (.leaf (.mult 37097 2075 (.ofNat 1) 0)) .nil) .nil) .nil) .nil) (.node (.node (.node (.node (.leaf (.trans [(7117307, .negSucc 1)] 1)) .nil) .nil) .nil) (.node (.node (.node (.leaf (.mult 24179 2136 (.ofNat 1) 0)) .nil) .nil) .nil)))) (.node (.node (.node (.node (.node (.node (.leaf (.trans [(21807131, .ofNat 1)] 0)) .nil) .nil) .nil) (.node (.node (.node (.leaf (.mult 30727 2361 (.ofNat 1) 0)) .nil) .nil) .nil)) (.node (.node (.node (.node (.leaf (.mult 7717 2282 (.ofNat 1) 0)) .nil) .nil) .nil) (.node (.node (.node (.leaf (.trans [(8771044211, .ofNat 1)] 0)) .nil) .nil) .nil))) (.node (.node (.node (.node (.node (.leaf (.trans [(606318247, .ofNat 2)] 1)) .nil) .nil) .nil) (.node (.node (.node (.leaf (.trans [(35674423, .ofNat 1)] 0)) .nil) .nil) .nil)) (.node .nil (.node (.node (.node (.leaf (.mult 46141 4865 (.ofNat 1) 0)) .nil) .nil) .nil))))))

def jac271 : JTree := .node (.node (.node (.node (.node (.node (.node .nil (.node (.node (.leaf (.mult 38651 2522 (.negSucc 0) 0)) .nil) .nil)) .nil) (.node (.node (.node (.node (.leaf (.trans [(17189, .ofNat 1), (17191, .negSucc 0)] 0)) .nil) .nil) .nil) (.node (.node (.node (.leaf (.trans [(1657391, .ofNat 1)] 0)) .nil) .nil) .nil))) (.node (.node (.node (.node (.node (.leaf (.trans [(2037587, .ofNat 1)] 0)) .nil) .nil) .nil) (.node (.node (.node (.leaf (.mult 30803 2373 (.ofNat 1) 0)) .nil) .nil) .nil)) (.node (.node (.node (.node (.leaf (.mult 24391 2251 (.ofNat 1) 0)) .nil) .nil) .nil) (.node (.node (.node (.leaf (.mult 18127 2077 (.ofNat 1) 0)) .nil) .nil) .nil)))) (.node (.node (.node (.node (.node (.node (.leaf (.trans [(69133, .ofNat 1), (96133, .negSucc 0)] 0)) .nil) .nil) .nil) (.node (.node (.node (.leaf (.mult 5749 2328 (.ofNat 2) 1)) .nil) .nil) .nil)) (.node (.node (.node (.node (.leaf (.mult 24251 2208 (.ofNat 1) 0)) .nil) .nil) .nil) (.node (.node (.node (.leaf (.trans [(1052869, .ofNat 1)] 0)) .nil) .nil) .nil))) (.node (.node (.node (.node (.node (.leaf (.mult 7321 2055 (.ofNat 1) 0)) .nil) .nil) .nil) (.node (.node (.node (.leaf (.mult 38237 2454 (.ofNat 1) 0)) .nil) .nil) .nil)) (.node (.node (.node (.node (.leaf (.mult 13151 1102 (.ofNat 1) 0)) .nil) .nil) .nil) (.node (.node (.node (.leaf (.mult 18719 2474 (.ofNat 1) 0)) .nil) .nil) .nil))))) (.node (.node (.node (.node (.node (.node (.node (.leaf (.mult 2273 1072 (.ofNat 2) 1)) .nil) .nil) .nil) (.node (.node (.node (.leaf (.mult 11071 1624 (.ofNat 1) 0)) .nil) .nil) .nil)) (.node (.node (.node (.node (.leaf (.mult 6257 2196 (.ofNat 1) 0)) .nil) .nil) .nil) (.node (.node (.node (.leaf (.trans [(26093865373, .ofNat 1), (38040333277, .ofNat 1)] 0)) .nil) .nil) .nil))) (.node (.node (.node (.node (.node (.leaf (.trans [(7098443903, .ofNat 1), (9032624803, .ofNat 1), (10308029191, .negSucc 0), (13116756491, .negSucc 0)] 0)) .nil) .nil) .nil) (.node (.node (.node (.leaf (.mult 24781 2450 (.ofNat 1) 0)) .nil) .nil) .nil)) (.node (.node (.node (.node (.leaf (.mult 13159 1104 (.ofNat 2) 1)) .nil) .nil) .nil) (.node (.node (.node (.leaf (.trans [(1072873511, .ofNat 1)] 0)) .nil) .nil) .nil)))) (.node (.node (.node .nil (.node (.node (.node (.leaf (.mult 24571 2331 (.ofNat 1) 0)) .nil) .nil) .nil)) (.node (.node (.node (.node (.leaf (.mult 13679 2248 (.ofNat 1) 0)) .nil) .nil) .nil) (.node (.node (.node (.leaf (.trans [(2980213, .ofNat 1)] 0)) .nil) .nil) .nil))) (.node (.node (.node (.node (.node (.leaf (.mult 15053 1157 (.ofNat 1) 0)) .nil) .nil) .nil) (.node (.node (.node (.leaf (.mult 38303 2465 (.ofNat 1) 0)) .nil) .nil) .nil)) (.node (.node (.node (.node (.leaf (.mult 35671 1616 (.ofNat 1) 0)) .nil) .nil) .nil) (.node (.node (.node (.leaf (.mult 38639 2520 (.ofNat 1) 0)) .nil) .nil) .nil)))))) (.node (.node (.node (.node (.node .nil (.node (.node (.node (.leaf (.mult 23087 1486 (.ofNat 1) 0)) .nil) .nil) .nil)) (.node (.node (.node (.node (.leaf (.mult 11813 2149 (.ofNat 1) 0)) .nil) .nil) .nil) (.node (.node (.node (.leaf (.trans [(119066117, .ofNat 1)] 0)) .nil) .nil) .nil))) (.node (.node (.node (.node (.node (.leaf (.mult 3041 1191 (.ofNat 1) 0)) .nil) .nil) .nil) (.node (.node (.node (.leaf (.mult 37871 2389 (.ofNat 1) 0)) .nil) .nil) .nil)) (.node .nil (.node (.node (.node (.leaf (.mult 24809 2501 (.ofNat 1) 0)) .nil) .nil) .nil)))) (.node (.node (.node .nil (.node (.node (.node (.leaf (.mult 24623 2335 (.ofNat 1) 0)) .nil) .nil) .nil)) (.node (.node (.node (.node (.leaf (.mult 8581 2224 (.ofNat 1) 0)) .nil) .nil) .nil) .nil)) (.node (.node (.node (.node (.node (.leaf (.trans [(6997, .ofNat 1), (7673, .ofNat 1)] 0)) .nil) .nil) .nil) (.node (.node (.node (.leaf (.mult 38393 2486 (.ofNat 1) 0)) .nil) .nil) .nil)) (.node (.node (.node (.node (.leaf (.mult 14939 1116 (.ofNat 1) 0)) .nil) .nil) .nil) (.node (.node (.node (.leaf (.mult 8543 2139 (.ofNat 1) 0)) .nil) .nil) .nil))))) (.node (.node (.node (.node .nil (.node (.node (.node (.leaf (.mult 37511 2301 (.negSucc 0) 0)) .nil) .nil) .nil)) (.node (.node (.node (.node (.leaf (.mult 7691 2182 (.negSucc 0) 0)) .nil) .nil) .nil) (.node (.node (.node (.leaf (.mult 18149 2095 (.negSucc 0) 0)) .nil) .nil) .nil))) (.node (.node (.node (.node (.node (.leaf (.mult 7669 2061 (.negSucc 0) 0)) .nil) .nil) .nil) (.node (.node (.node (.leaf (.mult 38053 2422 (.ofNat 1) 0)) .nil) .nil) .nil)) (.node (.node (.node (.node (.leaf (.mult 22739 1105 (.negSucc 1) 1)) .nil) .nil) .nil) (.node (.node (.node (.leaf (.mult 13697 2435 (.ofNat 1) 0)) .nil) .nil) .nil)))) (.node (.node (.node (.node (.node (.node (.leaf (.trans [(36697957, .ofNat 1)] 0)) .nil) .nil) .nil) (.node (.node (.node (.leaf (.mult 37691 2357 (.ofNat 1) 0)) .nil) .nil) .nil)) (.node (.node (.node (.node (.leaf (.mult 6263 2272 (.ofNat 1) 0)) .nil) .nil) .nil) (.node (.node (.node (.leaf (.mult 38153 2436 (.ofNat 1) 0)) .nil) .nil) .nil))) (.node (.node (.node (.node (.node (.leaf (.mult 15017 1139 (.ofNat 1) 0)) .nil) .nil) .nil) (.node (.node (.node (.leaf (.mult 30469 2154 (.ofNat 1) 0)) .nil) .nil) .nil)) (.node (.node (.node (.node (.leaf (.mult 12143 1124 (.ofNat 1) 0)) .nil) .nil) .nil) (.node (.node (.node (.leaf (.mult 31033 2470 (.ofNat 1) 0)) .nil) .nil) .nil))))))

def jac272 : JTree := .node (.node (.node (.node (.node (.node .nil (.node (.node (.node (.leaf (.mult 29671 1608 (.ofNat 1) 0)) .nil) .nil) .nil)) (.node (.node (.node (.node (.leaf (.mult 13649 2144 (.ofNat 1) 0)) .nil) .nil) .nil) (.node (.node (.node (.leaf (.trans [(7656251, .ofNat 1)] 0)) .nil) .nil) .nil))) (.node (.node (.node (.node (.node (.leaf (.trans [(30961603, .ofNat 1)] 0)) .nil) .nil) .nil) (.node (.node (.node (.leaf (.mult 37847 2382 (.negSucc 1) 1)) .nil) .nil) .nil)) (.node (.node (.node (.node (.leaf (.trans [(10566137, .ofNat 1)] 0)) .nil) .nil) .nil) (.node (.node (.node (.leaf (.mult 13591 2081 (.ofNat 1) 0)) .nil) .nil) .nil)))) (.node (.node (.node (.node (.node (.node (.leaf (.mult 3833 1159 (.ofNat 1) 0)) .nil) .nil) .nil) (.node (.node (.node (.leaf (.mult 24677 2343 (.ofNat 1) 0)) .nil) .nil) .nil)) (.node (.node (.node (.node (.leaf (.mult 8609 2231 (.ofNat 1) 0)) .nil) .nil) .nil) (.node (.node (.node (.leaf (.trans [(2780381, .ofNat 1)] 0)) .nil) .nil) .nil))) (.node (.node (.node (.node (.node (.leaf (.trans [(1201071167, .ofNat 1)] 0)) .nil) .nil) .nil) (.node (.node (.node (.leaf (.mult 30911 2429 (.ofNat 1) 0)) .nil) .nil) .nil)) (.node (.node (.node (.node (.leaf (.mult 10891 1121 (.ofNat 1) 0)) .nil) .nil) .nil) (.node (.node (.node (.leaf (.mult 37139 2108 (.ofNat 1) 0)) .nil) .nil) .nil))))) (.node (.node (.node (.node (.node (.node (.node (.leaf (.mult 1297 1126 (.ofNat 1) 0)) .nil) .nil) .nil) (.node (.node (.node (.leaf (.mult 37501 2297 (.ofNat 1) 0)) .nil) .nil) .nil)) (.node (.node (.node (.node (.leaf (.mult 18313 2177 (.ofNat 1) 0)) .nil) .nil) .nil) (.node (.node (.node (.leaf (.trans [(1599341, .ofNat 1)] 0)) .nil) .nil) .nil))) (.node (.node (.node (.node (.node (.leaf (.trans [(2663333, .ofNat 2)] 0)) .nil) .nil) .nil) .nil) (.node (.node (.node (.node (.leaf (.trans [(9064793, .negSucc 1)] 1)) .nil) .nil) .nil) (.node (.node (.node (.leaf (.mult 38149 2434 (.ofNat 1) 0)) .nil) .nil) .nil)))) (.node (.node (.node (.node (.node (.node (.leaf (.trans [(1033997, .ofNat 1)] 0)) .nil) .nil) .nil) (.node (.node (.node (.leaf (.mult 37897 2393 (.ofNat 1) 0)) .nil) .nil) .nil)) (.node (.node (.node (.node (.leaf (.trans [(13452473, .ofNat 1)] 0)) .nil) .nil) .nil) (.node (.node (.node (.leaf (.mult 12323 2242 (.ofNat 1) 0)) .nil) .nil) .nil))) (.node (.node (.node (.node (.node (.leaf (.mult 15091 1182 (.ofNat 1) 0)) .nil) .nil) .nil) (.node (.node (.node (.leaf (.mult 38219 2451 (.ofNat 1) 0)) .nil) .nil) .nil)) (.node (.node (.node (.node (.leaf (.mult 1861 1186 (.ofNat 1) 0)) .nil) .nil) .nil) (.node (.node (.node (.leaf (.mult 34843 4860 (.ofNat 1) 0)) (.leaf (.trans [(47041, .ofNat 1)] 0))) .nil) .nil)))))) (.node (.node (.node (.node (.node (.node (.node (.node (.leaf (.trans [(66013, .ofNat 1), (95861, .negSucc 0)] 0)) .nil) .nil) .nil) (.node (.node (.node (.leaf (.mult 4951 1484 (.ofNat 1) 0)) .nil) .nil) .nil)) (.node (.node (.node (.node (.leaf (.mult 24223 2167 (.ofNat 1) 0)) .nil) .nil) .nil) (.node (.node (.node (.leaf (.mult 18289 2163 (.ofNat 1) 0)) .nil) .nil) .nil))) (.node (.node .nil (.node (.node (.node (.leaf (.mult 30869 2414 (.ofNat 1) 0)) .nil) .nil) .nil)) (.node (.node (.node (.node (.leaf (.mult 28909 1098 (.ofNat 1) 0)) .nil) .nil) .nil) (.node (.node (.node (.leaf (.mult 31121 2502 (.ofNat 1) 0)) .nil) .nil) .nil)))) (.node (.node (.node (.node (.node (.node (.leaf (.trans [(1881353, .ofNat 1)] 0)) .nil) .nil) .nil) (.node (.node (.node (.leaf (.mult 37579 2324 (.ofNat 1) 0)) .nil) .nil) .nil)) (.node (.node (.node (.node (.leaf (.mult 37277 2225 (.ofNat 1) 0)) .nil) .nil) .nil) (.node (.node (.node (.leaf (.trans [(256856753, .ofNat 1)] 0)) .nil) .nil) .nil))) (.node (.node (.node (.node (.node (.leaf (.mult 29017 1143 (.ofNat 1) 0)) .nil) .nil) .nil) (.node (.node (.node (.leaf (.mult 2917 1339 (.ofNat 1) 0)) .nil) .nil) .nil)) (.node (.node (.node (.node (.leaf (.mult 8291 1180 (.ofNat 1) 0)) .nil) .nil) .nil) (.node (.node (.node (.leaf (.mult 38561 2508 (.ofNat 1) 0)) (.leaf (.trans [(15121, .ofNat 1)] 0))) .nil) .nil))))) (.node (.node (.node (.node (.node (.node (.node (.leaf (.trans [(422957, .ofNat 1)] 0)) .nil) .nil) .nil) (.node (.node (.node (.leaf (.mult 30643 2313 (.ofNat 1) 0)) .nil) .nil) .nil)) (.node (.node (.node (.node (.leaf (.mult 18371 2192 (.ofNat 1) 0)) .nil) .nil) .nil) (.node (.node (.node (.leaf (.trans [(7930831, .ofNat 1)] 0)) .nil) .nil) .nil))) (.node (.node (.node (.node (.node (.leaf (.mult 8461 2053 (.ofNat 1) 0)) .nil) .nil) .nil) .nil) (.node (.node (.node (.node (.leaf (.trans [(7117933, .negSucc 1)] 1)) .nil) .nil) .nil) (.node (.node (.node (.leaf (.mult 18131 2088 (.ofNat 1) 0)) .nil) .nil) .nil)))) (.node (.node (.node (.node (.node (.node (.leaf (.mult 2269 1067 (.ofNat 1) 0)) .nil) .nil) .nil) (.node (.node (.node (.leaf (.mult 30763 2364 (.negSucc 0) 0)) .nil) .nil) .nil)) (.node (.node (.node (.node (.leaf (.trans [(3146291, .ofNat 1), (4003591, .ofNat 1)] 0)) .nil) .nil) .nil) (.node (.node (.node (.leaf (.mult 38321 2472 (.ofNat 1) 0)) .nil) .nil) .nil))) (.node (.node (.node (.node (.node (.leaf (.trans [(724966531, .ofNat 2)] 1)) .nil) .nil) .nil) (.node (.node (.node (.leaf (.trans [(2364431, .ofNat 1)] 0)) .nil) .nil) .nil)) (.node (.node (.node (.node (.leaf (.mult 29587 1537 (.ofNat 1) 0)) .nil) .nil) .nil) (.node (.node (.node (.leaf (.mult 38183 2444 (.ofNat 1) 0)) .nil) .nil) .nil))))))

def jac273 : JTree := .node (.node (.node (.node (.node (.node (.node .nil (.node (.node (.leaf (.mult 46993 4976 (.ofNat 1) 0)) .nil) .nil)) (.node (.node (.node (.leaf (.mult 28979 1122 (.ofNat 1) 0)) .nil) .nil) .nil)) (.node (.node (.node (.node (.leaf (.trans [(14887, .ofNat 1), (14891, .ofNat 1)] 0)) .nil) .nil) .nil) (.node (.node (.node (.leaf (.trans [(15610349, .ofNat 1)] 0)) .nil) .nil) .nil))) (.node (.node (.node (.node (.node (.leaf (.mult 9781 2267 (.ofNat 1) 0)) .nil) .nil) .nil) (.node (.node (.node (.leaf (.mult 30773 2368 (.ofNat 1) 0)) .nil) .nil) .nil)) (.node (.node (.node (.node (.leaf (.mult 8627 2279 (.ofNat 1) 0)) .nil) .nil) .nil) (.node (.node (.node (.leaf (.mult 37171 2125 (.ofNat 1) 0)) .nil) .nil) .nil)))) (.node (.node (.node (.node (.node (.node (.leaf (.trans [(461809, .ofNat 1)] 0)) .nil) .nil) .nil) (.node (.node (.node (.leaf (.mult 24533 2316 (.ofNat 1) 0)) .nil) .nil) .nil)) (.node (.node (.node (.node (.leaf (.mult 18401 2205 (.ofNat 1) 0)) .nil) .nil) .nil) (.node (.node (.node (.leaf (.trans [(690894293, .ofNat 1)] 0)) .nil) .nil) .nil))) (.node (.node (.node (.node (.node (.leaf (.mult 10181 2049 (.ofNat 1) 0)) .nil) .nil) .nil) (.node (.node (.node (.leaf (.mult 38039 2420 (.ofNat 1) 0)) .nil) .nil) .nil)) (.node (.node (.node (.node (.leaf (.trans [(595013, .ofNat 2)] 1)) .nil) .nil) .nil) (.node (.node (.node (.leaf (.mult 18199 2102 (.ofNat 1) 0)) .nil) .nil) .nil))))) (.node (.node (.node (.node (.node (.node (.node (.leaf (.mult 3361 1070 (.ofNat 1) 0)) .nil) .nil) .nil) (.node (.node (.node (.leaf (.mult 2953 1541 (.ofNat 1) 0)) .nil) .nil) .nil)) (.node (.node (.node (.node (.leaf (.mult 30517 2172 (.ofNat 1) 0)) .nil) .nil) .nil) (.node (.node (.node (.leaf (.mult 30539 2197 (.ofNat 1) 0)) .nil) .nil) .nil))) (.node (.node (.node (.node (.node (.leaf (.mult 4259 2109 (.ofNat 1) 0)) .nil) .nil) .nil) (.node (.node (.node (.leaf (.mult 31039 2477 (.ofNat 1) 0)) .nil) .nil) .nil)) (.node (.node (.node (.node (.leaf (.mult 13103 1086 (.ofNat 2) 1)) .nil) .nil) .nil) (.node (.node (.node (.leaf (.trans [(13802081, .ofNat 2)] 0)) .nil) .nil) .nil)))) (.node (.node (.node (.node (.node (.node (.leaf (.mult 6451 1137 (.ofNat 1) 0)) .nil) .nil) .nil) (.node (.node (.node (.leaf (.trans [(475279109, .ofNat 1)] 0)) .nil) .nil) .nil)) (.node .nil (.node (.node (.node (.leaf (.trans [(1956207761, .ofNat 1)] 0)) .nil) .nil) .nil))) (.node (.node (.node (.node (.node (.leaf (.trans [(644209, .ofNat 2)] 0)) .nil) .nil) .nil) (.node (.node (.node (.leaf (.mult 38113 2430 (.ofNat 1) 0)) .nil) .nil) .nil)) (.node (.node (.node (.node (.leaf (.mult 22769 1168 (.ofNat 1) 0)) .nil) .nil) .nil) (.node (.node (.node (.leaf (.mult 15809 2509 (.ofNat 1) 0)) (.leaf (.mult 1447 1543 (.ofNat 1) 0))) .nil) .nil)))))) (.node (.node (.node (.node (.node .nil (.node (.node (.node (.leaf (.mult 35593 1609 (.ofNat 1) 0)) .nil) .nil) .nil)) (.node (.node (.node (.node (.leaf (.mult 12281 2147 (.ofNat 1) 0)) .nil) .nil) .nil) (.node (.node (.node (.leaf (.trans [(1643223403, .ofNat 1)] 0)) .nil) .nil) .nil))) (.node (.node (.node (.node (.node (.leaf (.mult 2029 1066 (.negSucc 0) 0)) .nil) .nil) .nil) (.node (.node (.node (.leaf (.mult 37853 2384 (.ofNat 1) 0)) .nil) .nil) .nil)) (.node (.node (.node (.node (.leaf (.mult 13687 2266 (.ofNat 1) 0)) .nil) .nil) .nil) (.node (.node (.node (.leaf (.mult 24421 2285 (.ofNat 1) 0)) .nil) .nil) .nil)))) (.node (.node (.node (.node (.node (.node (.leaf (.trans [(19783067, .ofNat 1), (28840283, .ofNat 1)] 0)) .nil) .nil) .nil) (.node (.node (.node (.leaf (.mult 24691 2348 (.ofNat 1) 0)) .nil) .nil) .nil)) (.node .nil (.node (.node (.node (.leaf (.mult 18413 2206 (.ofNat 1) 0)) .nil) .nil) .nil))) (.node (.node (.node (.node (.node (.leaf (.trans [(7331, .ofNat 1), (2064683, .ofNat 1)] 0)) .nil) .nil) .nil) (.node (.node (.node (.leaf (.mult 31069 2487 (.ofNat 1) 0)) .nil) .nil) .nil)) (.node (.node (.node (.node (.leaf (.mult 17209 1140 (.ofNat 1) 0)) .nil) .nil) .nil) (.node (.node (.node (.leaf (.mult 8647 2513 (.ofNat 1) 0)) .nil) .nil) .nil))))) (.node (.node (.node (.node (.node (.node (.node (.leaf (.mult 1549 1061 (.ofNat 1) 0)) .nil) .nil) .nil) (.node (.node (.node (.leaf (.mult 24499 2300 (.ofNat 1) 0)) .nil) .nil) .nil)) (.node (.node (.node (.node (.leaf (.trans [(55148207, .negSucc 0)] 0)) .nil) .nil) .nil) (.node (.node (.node (.leaf (.mult 18169 2096 (.negSucc 0) 0)) .nil) .nil) .nil))) (.node (.node (.node (.node (.node (.leaf (.trans [(2849237, .ofNat 2)] 0)) .nil) .nil) .nil) .nil) (.node (.node (.node (.node (.leaf (.trans [(9052273, .negSucc 1)] 1)) .nil) .nil) .nil) (.node (.node (.node (.leaf (.mult 13709 2437 (.ofNat 1) 0)) .nil) .nil) .nil)))) (.node (.node (.node (.node (.node (.node (.leaf (.mult 2671 2229 (.ofNat 1) 0)) .nil) .nil) .nil) (.node (.node (.node (.leaf (.mult 37951 2395 (.ofNat 1) 0)) .nil) .nil) .nil)) (.node (.node (.node (.node (.leaf (.mult 13691 2268 (.ofNat 1) 0)) .nil) .nil) .nil) (.node (.node (.node (.leaf (.mult 37483 2291 (.ofNat 1) 0)) .nil) .nil) .nil))) (.node (.node (.node (.node (.node (.leaf (.mult 17203 1128 (.ofNat 1) 0)) .nil) .nil) .nil) (.node (.node (.node (.leaf (.mult 18691 2433 (.ofNat 1) 0)) .nil) .nil) .nil)) (.node .nil (.node (.node (.node (.leaf (.mult 35111 4924 (.ofNat 1) 0)) .nil) .nil) .nil))))))

def jac274 : JTree := .node (.node (.node (.node (.node (.node (.node .nil (.node (.node (.leaf (.mult 47041 4979 (.negSucc 0) 0)) .nil) .nil)) .nil) (.node (.node (.node (.node (.leaf (.mult 5081 2152 (.ofNat 1) 0)) .nil) .nil) .nil) (.node (.node (.node (.leaf (.trans [(21103111, .ofNat 1)] 0)) .nil) .nil) .nil))) (.node (.node (.node (.node (.node (.leaf (.mult 8513 2082 (.ofNat 1) 0)) .nil) .nil) .nil) (.node (.node (.node (.leaf (.mult 30817 2377 (.negSucc 1) 1)) .nil) .nil) .nil)) (.node (.node (.node (.node (.leaf (.mult 37361 2254 (.ofNat 1) 0)) .nil) .nil) .nil) .nil))) (.node (.node (.node (.node (.node (.node (.leaf (.mult 4027 1160 (.ofNat 1) 0)) .nil) .nil) .nil) (.node (.node (.node (.leaf (.trans [(1693289623, .ofNat 2)] 1)) .nil) .nil) .nil)) (.node (.node (.node (.node (.leaf (.mult 24373 2218 (.ofNat 1) 0)) .nil) .nil) .nil) .nil)) (.node .nil (.node (.node (.node (.node (.leaf (.mult 13183 1145 (.ofNat 1) 0)) .nil) .nil) .nil) (.node (.node (.node (.leaf (.mult 37181 2128 (.ofNat 1) 0)) .nil) .nil) .nil))))) (.node (.node (.node (.node (.node (.node (.node (.leaf (.trans [(69527, .ofNat 1)] 0)) .nil) .nil) .nil) (.node (.node (.node (.leaf (.mult 18523 2356 (.ofNat 1) 0)) .nil) .nil) .nil)) (.node (.node (.node (.node (.leaf (.mult 37217 2178 (.ofNat 1) 0)) .nil) .nil) .nil) (.node (.node (.node (.leaf (.trans [(2706133, .ofNat 1)] 0)) .nil) .nil) .nil))) (.node (.node (.node (.node (.node (.leaf (.trans [(11469692737, .ofNat 1), (16655752889, .negSucc 0)] 0)) .nil) .nil) .nil) (.node (.node (.node (.leaf (.mult 49033 2475 (.negSucc 0) 0)) .nil) .nil) .nil)) (.node (.node (.node (.node (.leaf (.mult 28933 1106 (.negSucc 1) 1)) .nil) .nil) .nil) .nil))) (.node (.node (.node .nil (.node (.node (.node (.leaf (.mult 24697 2351 (.ofNat 1) 0)) .nil) .nil) .nil)) (.node (.node (.node (.node (.leaf (.mult 24379 2249 (.ofNat 1) 0)) .nil) .nil) .nil) (.node (.node (.node (.leaf (.trans [(1007286827, .ofNat 1)] 0)) .nil) .nil) .nil))) (.node (.node (.node (.node (.node (.leaf (.mult 15083 1181 (.ofNat 1) 0)) .nil) .nil) .nil) (.node (.node (.node (.leaf (.mult 37997 2417 (.ofNat 1) 0)) .nil) .nil) .nil)) (.node (.node (.node (.node (.leaf (.mult 17321 1185 (.ofNat 1) 0)) .nil) .nil) .nil) (.node (.node (.node (.leaf (.mult 6841 2521 (.ofNat 1) 0)) (.leaf (.trans [(2389, .ofNat 1)] 0))) .nil) .nil)))))) (.node (.node (.node (.node (.node .nil (.node (.node (.node (.leaf (.mult 23447 1621 (.ofNat 1) 0)) .nil) .nil) .nil)) (.node (.node (.node (.node (.leaf (.mult 18287 2162 (.ofNat 1) 0)) .nil) .nil) .nil) (.node (.node (.node (.leaf (.trans [(7151303, .ofNat 1)] 0)) .nil) .nil) .nil))) (.node (.node (.node (.node (.node (.leaf (.trans [(360761, .ofNat 1)] 0)) .nil) .nil) .nil) (.node (.node (.node (.leaf (.mult 18617 2408 (.negSucc 0) 0)) .nil) .nil) .nil)) (.node .nil (.node (.node (.node (.leaf (.trans [(786248213, .ofNat 1)] 0)) .nil) .nil) .nil)))) (.node (.node (.node (.node (.node (.node (.leaf (.mult 6421 1077 (.ofNat 1) 0)) .nil) .nil) .nil) (.node (.node (.node (.leaf (.mult 24659 2340 (.ofNat 1) 0)) .nil) .nil) .nil)) (.node (.node (.node (.node (.leaf (.mult 37313 2236 (.ofNat 1) 0)) .nil) .nil) .nil) (.node (.node (.node (.leaf (.trans [(607745059, .ofNat 1)] 0)) .nil) .nil) .nil))) (.node (.node (.node (.node (.node (.leaf (.mult 7681 2074 (.ofNat 1) 0)) .nil) .nil) .nil) (.node (.node (.node (.leaf (.mult 30949 2459 (.ofNat 1) 0)) .nil) .nil) .nil)) (.node (.node (.node (.node (.leaf (.mult 14929 1084 (.ofNat 1) 0)) .nil) .nil) .nil) (.node (.node (.node (.leaf (.trans [(18679, .ofNat 1), (18691, .negSucc 0)] 0)) .nil) .nil) .nil))))) (.node (.node (.node (.node .nil (.node (.node (.node (.leaf (.mult 30631 2308 (.ofNat 1) 0)) .nil) .nil) .nil)) (.node (.node (.node (.node (.leaf (.mult 10223 2176 (.negSucc 0) 0)) .nil) .nil) .nil) (.node (.node (.node (.leaf (.trans [(5662771, .ofNat 1)] 0)) .nil) .nil) .nil))) (.node (.node (.node (.node (.node (.leaf (.mult 6991 2058 (.ofNat 2) 0)) .nil) .nil) .nil) (.node (.node (.node (.leaf (.mult 38453 2494 (.ofNat 1) 0)) .nil) .nil) .nil)) (.node (.node (.node (.node (.leaf (.trans [(7107917, .negSucc 1)] 1)) .nil) .nil) .nil) (.node (.node (.node (.leaf (.mult 38557 2505 (.ofNat 1) 0)) .nil) .nil) .nil)))) (.node (.node (.node (.node (.node (.node (.leaf (.trans [(78899, .negSucc 0)] 0)) .nil) .nil) .nil) (.node (.node (.node (.leaf (.mult 37693 2360 (.negSucc 0) 0)) .nil) .nil) .nil)) (.node (.node (.node (.node (.leaf (.trans [(3763547, .ofNat 1)] 0)) .nil) .nil) .nil) (.node (.node (.node (.leaf (.mult 37447 2284 (.ofNat 1) 0)) .nil) .nil) .nil))) (.node (.node (.node (.node (.node (.leaf (.mult 17191 1083 (.ofNat 1) 0)) .nil) .nil) .nil) (.node (.node (.node (.leaf (.mult 30347 2093 (.negSucc 0) 0)) .nil) .nil) .nil)) (.node (.node (.node (.node (.leaf (.mult 29423 1482 (.ofNat 1) 0)) .nil) .nil) .nil) (.node (.node (.node (.leaf (.mult 34847 4863 (.ofNat 1) 0)) .nil) .nil) .nil))))))

def jac275 : JTree := .node (.node (.node (.node (.node (.node (.node .nil (.node (.node (.leaf (.mult 47017 4978 (.ofNat 1) 0)) .nil) .nil)) (.node (.node (.node (.leaf (.trans [(33585791, .negSucc 1)] 1)) .nil) .nil) .nil)) (.node (.node (.node (.node (.leaf (.trans [(15013, .ofNat 1), (15017, .ofNat 1)] 0)) .nil) .nil) .nil) (.node (.node (.node (.leaf (.trans [(14852003, .ofNat 1)] 0)) .nil) .nil) .nil))) (.node (.node (.node (.node (.node (.leaf (.trans [(100974539, .ofNat 1)] 0)) .nil) .nil) .nil) (.node (.node (.node (.leaf (.mult 37783 2372 (.ofNat 1) 0)) .nil) .nil) .nil)) (.node (.node (.node (.node (.leaf (.trans [(18898541, .ofNat 1)] 0)) .nil) .nil) .nil) (.node (.node (.node (.leaf (.mult 38189 2445 (.ofNat 1) 0)) .nil) .nil) .nil)))) (.node (.node (.node (.node (.node (.node (.leaf (.trans [(66013, .negSucc 0), (95861, .ofNat 1)] 0)) .nil) .nil) .nil) (.node (.node (.node (.leaf (.mult 3533 2322 (.ofNat 1) 0)) .nil) .nil) .nil)) (.node (.node (.node (.node (.leaf (.mult 24281 2209 (.ofNat 1) 0)) .nil) .nil) .nil) (.node (.node (.node (.leaf (.trans [(5296559, .ofNat 1)] 0)) .nil) .nil) .nil))) (.node (.node (.node (.node (.node (.leaf (.mult 6997 2072 (.ofNat 1) 0)) .nil) .nil) .nil) (.node (.node (.node (.leaf (.mult 38261 2456 (.ofNat 1) 0)) .nil) .nil) .nil)) (.node (.node (.node (.node (.leaf (.mult 6427 1093 (.ofNat 1) 0)) .nil) .nil) .nil) (.node (.node (.node (.leaf (.mult 13633 2137 (.ofNat 1) 0)) .nil) .nil) .nil))))) (.node (.node (.node (.node (.node (.node (.node (.leaf (.mult 1901 1076 (.ofNat 2) 1)) .nil) .nil) .nil) (.node (.node (.node (.leaf (.mult 11059 1622 (.negSucc 0) 0)) .nil) .nil) .nil)) (.node (.node (.node (.node (.leaf (.mult 6833 2194 (.ofNat 1) 0)) .nil) .nil) .nil) (.node (.node (.node (.leaf (.trans [(5343269, .ofNat 1)] 0)) .nil) .nil) .nil))) (.node (.node (.node (.node (.node (.leaf (.trans [(360761, .ofNat 1), (459061, .ofNat 1)] 0)) .nil) .nil) .nil) .nil) (.node (.node (.node (.node (.leaf (.mult 13171 1109 (.ofNat 2) 1)) .nil) .nil) .nil) (.node (.node (.node (.leaf (.mult 30593 2287 (.ofNat 1) 0)) .nil) .nil) .nil)))) (.node (.node (.node .nil (.node (.node (.node (.leaf (.mult 37589 2330 (.ofNat 1) 0)) .nil) .nil) .nil)) (.node .nil (.node (.node (.node (.leaf (.trans [(768558631, .ofNat 1)] 0)) .nil) .nil) .nil))) (.node (.node (.node (.node (.node (.leaf (.trans [(28859, .negSucc 0)] 0)) .nil) .nil) .nil) (.node (.node (.node (.leaf (.mult 30983 2466 (.ofNat 1) 0)) .nil) .nil) .nil)) (.node (.node (.node (.node (.leaf (.mult 23081 1485 (.ofNat 1) 0)) .nil) .nil) .nil) (.node (.node (.node (.leaf (.mult 15787 2438 (.ofNat 1) 0)) (.leaf (.trans [(757, .ofNat 1)] 0))) .nil) .nil)))))) (.node (.node (.node (.node (.node .nil (.node (.node (.node (.leaf (.mult 22807 1175 (.ofNat 1) 0)) .nil) .nil) .nil)) (.node (.node (.node (.node (.leaf (.mult 8563 2158 (.ofNat 1) 0)) .nil) .nil) .nil) (.node (.node (.node (.leaf (.trans [(2090129, .ofNat 2)] 0)) .nil) .nil) .nil))) (.node (.node (.node (.node (.node (.leaf (.mult 4049 1161 (.ofNat 1) 0)) .nil) .nil) .nil) (.node (.node (.node (.leaf (.mult 30859 2388 (.ofNat 1) 0)) .nil) .nil) .nil)) (.node .nil (.node (.node (.node (.leaf (.mult 24469 2289 (.ofNat 1) 0)) .nil) .nil) .nil)))) (.node (.node (.node .nil (.node (.node (.node (.leaf (.mult 24611 2334 (.ofNat 1) 0)) .nil) .nil) .nil)) (.node (.node (.node (.node (.leaf (.mult 37273 2223 (.ofNat 1) 0)) .nil) .nil) .nil) (.node (.node (.node (.leaf (.trans [(10826141, .ofNat 1)] 0)) .nil) .nil) .nil))) (.node (.node (.node (.node (.node (.leaf (.trans [(7321, .ofNat 1), (8461, .ofNat 1)] 0)) .nil) .nil) .nil) (.node (.node (.node (.leaf (.mult 31079 2489 (.ofNat 1) 0)) .nil) .nil) .nil)) (.node (.node (.node (.node (.leaf (.mult 14957 1123 (.ofNat 1) 0)) .nil) .nil) .nil) (.node (.node (.node (.leaf (.mult 8663 2515 (.ofNat 1) 0)) .nil) .nil) .nil))))) (.node (.node (.node (.node .nil (.node (.node (.node (.leaf (.mult 37537 2304 (.ofNat 1) 0)) .nil) .nil) .nil)) (.node (.node (.node (.node (.leaf (.mult 9749 2185 (.ofNat 1) 0)) .nil) .nil) .nil) (.node (.node (.node (.leaf (.trans [(6893539, .ofNat 1)] 0)) .nil) .nil) .nil))) (.node (.node (.node (.node (.node (.leaf (.trans [(18481, .ofNat 1)] 0)) .nil) .nil) .nil) .nil) (.node (.node (.node (.node (.leaf (.mult 22721 1095 (.ofNat 2) 1)) .nil) .nil) .nil) (.node (.node (.node (.leaf (.mult 13721 2504 (.ofNat 1) 0)) .nil) .nil) .nil)))) (.node (.node (.node (.node (.node (.node (.leaf (.mult 4733 2232 (.ofNat 1) 0)) .nil) .nil) .nil) (.node (.node (.node (.leaf (.trans [(44500321, .negSucc 0)] 0)) .nil) .nil) .nil)) (.node (.node (.node (.node (.leaf (.mult 4507 2276 (.ofNat 1) 0)) .nil) .nil) .nil) (.node (.node (.node (.leaf (.trans [(5138141, .ofNat 1)] 0)) .nil) .nil) .nil))) (.node (.node (.node (.node (.node (.leaf (.mult 11777 1194 (.ofNat 1) 0)) .nil) .nil) .nil) (.node (.node (.node (.leaf (.mult 30493 2159 (.ofNat 1) 0)) .nil) .nil) .nil)) (.node (.node (.node (.node (.leaf (.mult 29023 1148 (.ofNat 1) 0)) .nil) .nil) .nil) (.node (.node (.node (.leaf (.mult 31013 2468 (.ofNat 1) 0)) .nil) .nil) .nil))))))

def jac276 : JTree := .node (.node (.node (.node (.node (.node .nil (.node (.node (.node (.leaf (.mult 29581 1536 (.ofNat 1) 0)) .nil) .nil) .nil)) (.node (.node (.node (.node (.leaf (.mult 5077 2143 (.ofNat 1) 0)) .nil) .nil) .nil) (.node (.node (.node (.leaf (.trans [(13514093, .ofNat 1)] 0)) .nil) .nil) .nil))) (.node (.node (.node (.node (.node (.leaf (.trans [(543511, .ofNat 2)] 0)) .nil) .nil) .nil) (.node (.node (.node (.leaf (.mult 30829 2380 (.ofNat 1) 0)) .nil) .nil) .nil)) (.node (.node (.node (.node (.leaf (.trans [(12397783, .ofNat 1)] 0)) .nil) .nil) .nil) (.node (.node (.node (.leaf (.mult 24109 2089 (.ofNat 1) 0)) .nil) .nil) .nil)))) (.node (.node (.node (.node (.node (.node (.leaf (.mult 983 1127 (.ofNat 1) 0)) .nil) .nil) .nil) (.node (.node (.node (.leaf (.mult 24671 2342 (.ofNat 1) 0)) .nil) .nil) .nil)) (.node (.node (.node (.node (.leaf (.mult 18439 2219 (.ofNat 1) 0)) .nil) .nil) .nil) (.node (.node (.node (.leaf (.trans [(2789863, .ofNat 1)] 0)) .nil) .nil) .nil))) (.node (.node .nil (.node (.node (.node (.leaf (.mult 38083 2427 (.ofNat 1) 0)) .nil) .nil) .nil)) (.node (.node (.node (.node (.leaf (.mult 10909 1183 (.ofNat 1) 0)) .nil) .nil) .nil) (.node (.node (.node (.leaf (.mult 8527 2106 (.ofNat 1) 0)) .nil) .nil) .nil))))) (.node (.node (.node (.node (.node (.node (.node (.leaf (.trans [(88603, .ofNat 1), (97403, .negSucc 0)] 0)) .nil) .nil) .nil) (.node (.node (.node (.leaf (.mult 24481 2296 (.ofNat 1) 0)) .nil) .nil) .nil)) (.node (.node (.node (.node (.leaf (.mult 10223 2176 (.ofNat 1) 0)) .nil) .nil) .nil) (.node (.node (.node (.leaf (.trans [(1443149, .ofNat 1)] 0)) .nil) .nil) .nil))) (.node (.node (.node (.node (.node (.leaf (.trans [(2675711, .ofNat 1)] 0)) .nil) .nil) .nil) .nil) (.node (.node (.node (.node (.leaf (.trans [(9036623, .ofNat 2)] 1)) .nil) .nil) .nil) (.node (.node (.node (.leaf (.mult 24733 2402 (.ofNat 1) 0)) .nil) .nil) .nil)))) (.node (.node (.node (.node (.node (.node (.leaf (.mult 4493 2221 (.ofNat 1) 0)) .nil) .nil) .nil) (.node (.node (.node (.leaf (.mult 37889 2392 (.ofNat 1) 0)) .nil) .nil) .nil)) (.node (.node (.node (.node (.leaf (.trans [(11756999, .ofNat 1)] 0)) .nil) .nil) .nil) (.node (.node (.node (.leaf (.mult 18457 2241 (.ofNat 1) 0)) .nil) .nil) .nil))) (.node (.node (.node (.node (.node (.leaf (.mult 15013 1136 (.ofNat 1) 0)) .nil) .nil) .nil) (.node (.node (.node (.leaf (.mult 24799 2480 (.ofNat 1) 0)) .nil) .nil) .nil)) (.node (.node (.node (.node (.leaf (.mult 35729 1618 (.ofNat 1) 0)) .nil) .nil) .nil) (.node (.node (.node (.leaf (.mult 37201 2141 (.ofNat 1) 0)) (.leaf (.trans [(46589, .negSucc 0)] 0))) .nil) .nil)))))) (.node (.node (.node (.node (.node (.node (.node (.node (.leaf (.trans [(67591, .negSucc 0), (93623, .negSucc 0)] 0)) .nil) .nil) .nil) (.node (.node (.node (.leaf (.mult 4967 1490 (.negSucc 0) 0)) .nil) .nil) .nil)) (.node (.node (.node (.node (.leaf (.mult 24203 2166 (.ofNat 1) 0)) .nil) .nil) .nil) (.node (.node (.node (.leaf (.mult 24239 2174 (.ofNat 1) 0)) .nil) .nil) .nil))) (.node (.node (.node (.node (.node (.leaf (.trans [(8491054151, .ofNat 1), (12330312847, .negSucc 0)] 0)) .nil) .nil) .nil) (.node (.node (.node (.leaf (.mult 24749 2405 (.negSucc 0) 0)) .nil) .nil) .nil)) (.node (.node (.node (.node (.leaf (.mult 28927 1103 (.ofNat 1) 0)) .nil) .nil) .nil) (.node (.node (.node (.leaf (.mult 24439 2286 (.ofNat 1) 0)) .nil) .nil) .nil)))) (.node (.node (.node (.node (.node (.node (.leaf (.mult 5483 1193 (.ofNat 1) 0)) .nil) .nil) .nil) (.node (.node (.node (.leaf (.trans [(1314953821, .negSucc 0)] 0)) .nil) .nil) .nil)) (.node (.node (.node (.node (.leaf (.mult 37307 2226 (.ofNat 1) 0)) .nil) .nil) .nil) (.node (.node (.node (.leaf (.trans [(652452107, .ofNat 1)] 0)) .nil) .nil) .nil))) (.node (.node (.node (.node (.node (.leaf (.mult 28859 1064 (.ofNat 1) 0)) .nil) .nil) .nil) (.node (.node (.node (.leaf (.mult 2237 1342 (.negSucc 0) 0)) .nil) .nil) .nil)) (.node (.node (.node (.node (.leaf (.mult 15107 1189 (.ofNat 1) 0)) .nil) .nil) .nil) (.node (.node (.node (.leaf (.mult 15803 2507 (.ofNat 1) 0)) (.leaf (.mult 15121 1197 (.ofNat 1) 0))) .nil) .nil))))) (.node (.node (.node (.node (.node (.node (.node (.leaf (.trans [(2223577, .ofNat 1)] 0)) .nil) .nil) .nil) (.node (.node (.node (.leaf (.mult 37561 2312 (.ofNat 1) 0)) .nil) .nil) .nil)) (.node (.node (.node (.node (.leaf (.mult 18367 2191 (.ofNat 1) 0)) .nil) .nil) .nil) (.node (.node (.node (.leaf (.mult 18379 2198 (.ofNat 1) 0)) .nil) .nil) .nil))) (.node (.node (.node (.node (.node (.leaf (.mult 9767 2257 (.ofNat 1) 0)) .nil) .nil) .nil) .nil) (.node (.node (.node (.node (.leaf (.trans [(7113551, .ofNat 2)] 1)) .nil) .nil) .nil) (.node (.node (.node (.leaf (.mult 18133 2091 (.ofNat 1) 0)) .nil) .nil) .nil)))) (.node (.node (.node (.node (.node (.node (.leaf (.trans [(22517461, .negSucc 0)] 0)) .nil) .nil) .nil) (.node (.node (.node (.leaf (.mult 37717 2365 (.negSucc 1) 1)) .nil) .nil) .nil)) (.node (.node (.node (.node (.leaf (.mult 37423 2277 (.ofNat 1) 0)) .nil) .nil) .nil) .nil)) (.node (.node (.node (.node (.node (.leaf (.mult 14891 1073 (.ofNat 1) 0)) .nil) .nil) .nil) (.node (.node (.node (.leaf (.trans [(15589121, .ofNat 1)] 0)) .nil) .nil) .nil)) (.node (.node (.node (.node (.leaf (.mult 23071 1483 (.ofNat 1) 0)) .nil) .nil) .nil) (.node (.node (.node (.leaf (.mult 46997 4977 (.ofNat 1) 0)) .nil) .nil) .nil))))))

def jac277 : JTree := .node (.node (.node (.node (.node (.node (.node (.node (.node (.leaf (.trans [(257, .negSucc 0)] 0)) .nil) .nil) (.node (.node (.leaf (.mult 46147 4866 (.ofNat 1) 0)) .nil) .nil)) (.node (.node (.node (.leaf (.trans [(2223601, .negSucc 1)] 1)) .nil) .nil) .nil)) (.node (.node (.node (.node (.leaf (.trans [(14897, .ofNat 1), (14923, .ofNat 1)] 0)) .nil) .nil) .nil) (.node (.node (.node (.leaf (.trans [(2046229, .ofNat 1)] 0)) .nil) .nil) .nil))) (.node (.node (.node (.node (.node (.leaf (.trans [(1780781, .ofNat 1)] 0)) .nil) .nil) .nil) (.node (.node (.node (.leaf (.mult 30781 2369 (.negSucc 0) 0)) .nil) .nil) .nil)) (.node (.node (.node (.node (.leaf (.mult 37363 2258 (.ofNat 1) 0)) .nil) .nil) .nil) (.node (.node (.node (.leaf (.mult 18223 2115 (.ofNat 1) 0)) .nil) .nil) .nil)))) (.node (.node (.node (.node (.node (.node (.leaf (.trans [(175951, .ofNat 1)] 0)) .nil) .nil) .nil) (.node (.node (.node (.leaf (.mult 7333 2321 (.ofNat 1) 0)) .nil) .nil) .nil)) (.node (.node (.node (.node (.leaf (.mult 18397 2204 (.ofNat 1) 0)) .nil) .nil) .nil) (.node (.node (.node (.leaf (.trans [(2360587, .ofNat 1)] 0)) .nil) .nil) .nil))) (.node (.node (.node (.node (.node (.leaf (.mult 8467 2056 (.ofNat 1) 0)) .nil) .nil) .nil) (.node (.node (.node (.leaf (.mult 38351 2481 (.ofNat 1) 0)) .nil) .nil) .nil)) (.node (.node (.node (.node (.leaf (.mult 6449 1112 (.ofNat 1) 0)) .nil) .nil) .nil) (.node (.node (.node (.leaf (.mult 13723 2506 (.ofNat 1) 0)) .nil) .nil) .nil))))) (.node (.node (.node (.node (.node (.node (.node (.leaf (.mult 1213 1071 (.ofNat 1) 0)) .nil) .nil) .nil) (.node (.node (.node (.leaf (.mult 3187 1576 (.negSucc 0) 0)) .nil) .nil) .nil)) (.node (.node (.node (.node (.leaf (.mult 24229 2173 (.ofNat 1) 0)) .nil) .nil) .nil) (.node (.node (.node (.leaf (.trans [(5311613, .ofNat 1)] 0)) .nil) .nil) .nil))) (.node (.node .nil (.node (.node (.node (.leaf (.mult 31091 2493 (.ofNat 1) 0)) .nil) .nil) .nil)) (.node (.node (.node (.node (.leaf (.mult 13147 1099 (.ofNat 2) 1)) .nil) .nil) .nil) (.node (.node (.node (.leaf (.trans [(4636349, .ofNat 1)] 0)) .nil) .nil) .nil)))) (.node (.node (.node .nil (.node (.node (.node (.leaf (.mult 24547 2327 (.ofNat 1) 0)) .nil) .nil) .nil)) (.node (.node (.node (.node (.leaf (.mult 37339 2245 (.ofNat 1) 0)) .nil) .nil) .nil) (.node (.node (.node (.leaf (.trans [(3284731, .ofNat 1)] 0)) .nil) .nil) .nil))) (.node (.node .nil (.node (.node (.node (.leaf (.mult 31081 2492 (.ofNat 1) 0)) .nil) .nil) .nil)) (.node (.node (.node (.node (.leaf (.mult 35731 1619 (.ofNat 1) 0)) .nil) .nil) .nil) (.node (.node (.node (.leaf (.mult 15791 2442 (.ofNat 1) 0)) .nil) .nil) .nil)))))) (.node (.node (.node (.node (.node .nil (.node (.node (.node (.leaf (.mult 35597 1610 (.ofNat 1) 0)) .nil) .nil) .nil)) (.node (.node (.node (.node (.leaf (.mult 15731 2157 (.ofNat 1) 0)) .nil) .nil) .nil) (.node (.node (.node (.leaf (.trans [(13528873, .ofNat 1)] 0)) .nil) .nil) .nil))) (.node (.node (.node (.node (.node (.leaf (.trans [(652129, .ofNat 1)] 0)) .nil) .nil) .nil) (.node (.node (.node (.leaf (.mult 30853 2386 (.negSucc 0) 0)) .nil) .nil) .nil)) (.node .nil (.node (.node (.node (.leaf (.mult 15679 2112 (.ofNat 1) 0)) .nil) .nil) .nil)))) (.node (.node (.node .nil (.node (.node (.node (.leaf (.mult 30677 2336 (.ofNat 1) 0)) .nil) .nil) .nil)) (.node .nil (.node (.node (.node (.leaf (.mult 30559 2240 (.ofNat 1) 0)) .nil) .nil) .nil))) (.node (.node (.node (.node (.node (.leaf (.mult 6829 2076 (.ofNat 1) 0)) .nil) .nil) .nil) (.node (.node (.node (.leaf (.mult 31063 2485 (.ofNat 1) 0)) .nil) .nil) .nil)) (.node (.node (.node (.node (.leaf (.trans [(1663427, .ofNat 1), (6442019, .ofNat 1)] 0)) .nil) .nil) .nil) (.node (.node (.node (.leaf (.mult 8539 2134 (.ofNat 1) 0)) .nil) .nil) .nil))))) (.node (.node (.node (.node (.node (.node (.node (.leaf (.trans [(73543, .ofNat 1)] 0)) .nil) .nil) .nil) (.node (.node (.node (.leaf (.mult 37549 2306 (.ofNat 1) 0)) .nil) .nil) .nil)) (.node (.node (.node (.node (.leaf (.mult 18341 2183 (.ofNat 1) 0)) .nil) .nil) .nil) (.node (.node (.node (.leaf (.mult 18253 2123 (.ofNat 2) 0)) .nil) .nil) .nil))) (.node (.node (.node (.node (.node (.leaf (.mult 24103 2070 (.ofNat 1) 0)) .nil) .nil) .nil) .nil) (.node (.node (.node (.node (.leaf (.mult 22709 1087 (.negSucc 1) 1)) .nil) .nil) .nil) (.node (.node (.node (.leaf (.mult 18661 2410 (.ofNat 1) 0)) .nil) .nil) .nil)))) (.node (.node (.node (.node (.node (.node (.leaf (.trans [(1218001, .ofNat 1)] 0)) .nil) .nil) .nil) (.node (.node (.node (.leaf (.mult 37963 2397 (.ofNat 1) 0)) .nil) .nil) .nil)) (.node (.node (.node (.node (.leaf (.trans [(4733303, .ofNat 1)] 0)) .nil) .nil) .nil) (.node (.node (.node (.leaf (.trans [(13866227, .ofNat 1)] 0)) .nil) .nil) .nil))) (.node (.node (.node (.node (.node (.leaf (.mult 14923 1079 (.ofNat 1) 0)) .nil) .nil) .nil) (.node (.node (.node (.leaf (.mult 18713 2467 (.ofNat 1) 0)) .nil) .nil) .nil)) (.node (.node (.node (.node (.leaf (.mult 12119 1114 (.ofNat 1) 0)) .nil) .nil) .nil) (.node (.node (.node (.leaf (.mult 46957 4975 (.ofNat 1) 0)) .nil) .nil) .nil))))))

def jac278 : JTree := .node (.node (.node (.node (.node (.node .nil (.node (.node (.node (.leaf (.mult 29437 1489 (.ofNat 1) 0)) .nil) .nil) .nil)) (.node (.node (.node (.node (.leaf (.mult 5743 2153 (.ofNat 1) 0)) .nil) .nil) .nil) (.node (.node (.node (.leaf (.mult 18301 2164 (.ofNat 1) 0)) .nil) .nil) .nil))) (.node (.node (.node (.node (.node (.leaf (.trans [(9781, .ofNat 1)] 0)) .nil) .nil) .nil) (.node (.node (.node (.leaf (.mult 37813 2378 (.ofNat 1) 0)) .nil) .nil) .nil)) (.node (.node (.node (.node (.leaf (.mult 37397 2265 (.ofNat 1) 0)) .nil) .nil) .nil) (.node (.node (.node (.leaf (.mult 12269 2050 (.negSucc 0) 0)) .nil) .nil) .nil)))) (.node (.node (.node (.node (.node (.node (.leaf (.mult 4051 1190 (.ofNat 1) 0)) .nil) .nil) .nil) (.node (.node (.node (.leaf (.mult 30697 2344 (.ofNat 1) 0)) .nil) .nil) .nil)) (.node (.node (.node (.node (.leaf (.mult 24371 2217 (.ofNat 1) 0)) .nil) .nil) .nil) (.node (.node (.node (.leaf (.trans [(810863143, .ofNat 1)] 0)) .nil) .nil) .nil))) (.node (.node (.node (.node (.node (.leaf (.trans [(2422597, .ofNat 1)] 0)) .nil) .nil) .nil) (.node (.node (.node (.leaf (.mult 30881 2424 (.ofNat 1) 0)) .nil) .nil) .nil)) (.node (.node (.node (.node (.leaf (.mult 22777 1171 (.ofNat 1) 0)) .nil) .nil) .nil) (.node (.node (.node (.leaf (.mult 18229 2116 (.ofNat 1) 0)) .nil) .nil) .nil))))) (.node (.node (.node (.node .nil (.node (.node (.node (.leaf (.mult 37489 2294 (.ofNat 1) 0)) .nil) .nil) .nil)) (.node (.node (.node (.node (.leaf (.mult 18329 2180 (.ofNat 1) 0)) .nil) .nil) .nil) (.node (.node (.node (.leaf (.trans [(13314004091, .ofNat 1), (19409510459, .ofNat 1)] 0)) .nil) .nil) .nil))) (.node (.node (.node (.node (.node (.leaf (.mult 18121 2068 (.ofNat 1) 0)) .nil) .nil) .nil) .nil) (.node (.node (.node (.node (.leaf (.mult 28871 1088 (.ofNat 2) 1)) .nil) .nil) .nil) (.node (.node (.node (.leaf (.mult 38543 2503 (.ofNat 1) 0)) .nil) .nil) .nil)))) (.node (.node (.node (.node (.node (.node (.leaf (.mult 5303 2067 (.ofNat 1) 0)) .nil) .nil) .nil) (.node (.node (.node (.leaf (.mult 37657 2353 (.ofNat 1) 0)) .nil) .nil) .nil)) (.node (.node (.node (.node (.leaf (.mult 24407 2252 (.ofNat 1) 0)) .nil) .nil) .nil) (.node (.node (.node (.leaf (.trans [(3914191, .ofNat 1)] 0)) .nil) .nil) .nil))) (.node (.node (.node (.node (.node (.leaf (.mult 14897 1075 (.ofNat 1) 0)) .nil) .nil) .nil) (.node (.node (.node (.leaf (.mult 38329 2478 (.ofNat 1) 0)) .nil) .nil) .nil)) (.node (.node (.node (.node (.leaf (.mult 35747 1620 (.ofNat 1) 0)) .nil) .nil) .nil) (.node (.node (.node (.leaf (.mult 30403 2122 (.ofNat 1) 0)) (.leaf (.trans [(38651, .negSucc 0)] 0))) .nil) .nil)))))) (.node (.node (.node (.node (.node (.node (.node (.node (.leaf (.trans [(69133, .negSucc 0), (96133, .ofNat 1)] 0)) .nil) .nil) .nil) (.node (.node (.node (.leaf (.mult 3673 1188 (.ofNat 1) 0)) .nil) .nil) .nil)) (.node (.node (.node (.node (.leaf (.mult 18269 2161 (.ofNat 1) 0)) .nil) .nil) .nil) (.node (.node (.node (.leaf (.trans [(341276851, .ofNat 1)] 0)) .nil) .nil) .nil))) (.node (.node (.node (.node (.node (.leaf (.trans [(389393, .ofNat 1)] 0)) .nil) .nil) .nil) (.node (.node (.node (.leaf (.mult 18541 2400 (.negSucc 0) 0)) .nil) .nil) .nil)) (.node (.node (.node (.node (.leaf (.mult 28949 1108 (.ofNat 1) 0)) .nil) .nil) .nil) (.node (.node (.node (.leaf (.trans [(101099635643, .ofNat 1), (146812175971, .negSucc 0)] 0)) .nil) .nil) .nil)))) (.node (.node (.node (.node (.node (.node (.leaf (.mult 5479 1164 (.ofNat 1) 0)) .nil) .nil) .nil) (.node (.node (.node (.leaf (.mult 37571 2318 (.ofNat 1) 0)) .nil) .nil) .nil)) (.node (.node (.node (.node (.leaf (.mult 13669 2239 (.ofNat 1) 0)) .nil) .nil) .nil) .nil)) (.node (.node (.node (.node (.node (.leaf (.trans [(79567, .ofNat 1)] 0)) .nil) .nil) .nil) (.node (.node (.node (.leaf (.mult 38287 2463 (.ofNat 1) 0)) .nil) .nil) .nil)) (.node (.node (.node (.node (.leaf (.mult 15031 1151 (.ofNat 1) 0)) .nil) .nil) .nil) (.node (.node (.node (.leaf (.trans [(18701, .ofNat 1), (18713, .negSucc 0)] 0)) .nil) .nil) .nil))))) (.node (.node (.node (.node (.node (.node (.node (.leaf (.mult 9689 1142 (.negSucc 0) 0)) .nil) .nil) .nil) (.node (.node (.node (.leaf (.mult 24509 2310 (.ofNat 1) 0)) .nil) .nil) .nil)) (.node (.node (.node (.node (.leaf (.mult 30529 2189 (.ofNat 1) 0)) .nil) .nil) .nil) (.node (.node (.node (.leaf (.mult 24247 2203 (.ofNat 1) 0)) .nil) .nil) .nil))) (.node (.node (.node (.node (.node (.leaf (.mult 10193 2062 (.ofNat 1) 0)) .nil) .nil) .nil) .nil) (.node (.node (.node (.node (.leaf (.trans [(7111673, .ofNat 2)] 1)) .nil) .nil) .nil) (.node (.node (.node (.leaf (.mult 18191 2101 (.ofNat 1) 0)) .nil) .nil) .nil)))) (.node (.node (.node (.node (.node (.node (.leaf (.trans [(22040059, .ofNat 1)] 0)) .nil) .nil) .nil) (.node (.node (.node (.leaf (.mult 37699 2362 (.ofNat 1) 0)) .nil) .nil) .nil)) (.node (.node (.node (.node (.leaf (.mult 8629 2283 (.ofNat 1) 0)) .nil) .nil) .nil) (.node (.node (.node (.leaf (.trans [(8730468833, .ofNat 2)] 0)) .nil) .nil) .nil))) (.node (.node (.node (.node (.node (.leaf (.mult 15061 1158 (.ofNat 1) 0)) .nil) .nil) .nil) (.node (.node (.node (.leaf (.trans [(117044563, .ofNat 1), (128669363, .negSucc 0)] 0)) .nil) .nil) .nil)) (.node (.node (.node (.node (.leaf (.mult 29411 1480 (.ofNat 1) 0)) .nil) .nil) .nil) (.node (.node (.node (.leaf (.mult 35117 4927 (.ofNat 1) 0)) .nil) .nil) .nil))))))

def jac279 : JTree := .node (.node (.node (.node (.node (.node (.node .nil (.node (.node (.leaf (.mult 46153 4867 (.negSucc 0) 0)) .nil) .nil)) (.node (.node (.node (.leaf (.mult 29009 1125 (.ofNat 1) 0)) .nil) .nil) .nil)) (.node (.node (.node (.node (.leaf (.trans [(17203, .ofNat 1), (17207, .negSucc 0)] 0)) .nil) .nil) .nil) (.node (.node (.node (.leaf (.trans [(2907473, .ofNat 1)] 0)) .nil) .nil) .nil))) (.node (.node (.node (.node (.node (.leaf (.trans [(2028161, .ofNat 2)] 0)) .nil) .nil) .nil) (.node (.node (.node (.leaf (.mult 37799 2374 (.ofNat 1) 0)) .nil) .nil) .nil)) (.node (.node (.node (.node (.leaf (.mult 30577 2260 (.ofNat 1) 0)) .nil) .nil) .nil) (.node (.node (.node (.leaf (.mult 24091 2060 (.ofNat 1) 0)) .nil) .nil) .nil)))) (.node (.node (.node (.node (.node (.node (.leaf (.trans [(137297, .ofNat 1)] 0)) .nil) .nil) .nil) (.node (.node (.node (.leaf (.trans [(1833626303, .ofNat 2)] 1)) .nil) .nil) .nil)) (.node (.node (.node (.node (.leaf (.mult 24317 2210 (.ofNat 1) 0)) .nil) .nil) .nil) (.node (.node (.node (.leaf (.trans [(1166821, .ofNat 1)] 0)) .nil) .nil) .nil))) (.node (.node (.node (.node (.node (.leaf (.mult 7699 2255 (.ofNat 1) 0)) .nil) .nil) .nil) (.node (.node (.node (.leaf (.mult 38239 2455 (.ofNat 1) 0)) .nil) .nil) .nil)) (.node (.node (.node (.node (.leaf (.mult 13127 1097 (.ofNat 1) 0)) .nil) .nil) .nil) (.node (.node (.node (.leaf (.mult 24169 2133 (.ofNat 1) 0)) .nil) .nil) .nil))))) (.node (.node (.node (.node (.node (.node (.node (.leaf (.trans [(595013, .ofNat 2)] 1)) .nil) .nil) .nil) (.node (.node (.node (.leaf (.mult 11069 1623 (.negSucc 0) 0)) .nil) .nil) .nil)) (.node (.node (.node (.node (.leaf (.trans [(57628139, .ofNat 1)] 0)) .nil) .nil) .nil) (.node (.node (.node (.leaf (.trans [(12858931, .ofNat 1)] 0)) .nil) .nil) .nil))) (.node (.node (.node (.node (.node (.leaf (.trans [(525991, .ofNat 1)] 0)) .nil) .nil) .nil) .nil) (.node (.node (.node (.node (.leaf (.mult 28961 1110 (.negSucc 1) 1)) .nil) .nil) .nil) (.node (.node (.node (.leaf (.trans [(1188990599, .ofNat 1)] 0)) .nil) .nil) .nil)))) (.node (.node (.node .nil (.node (.node (.node (.leaf (.mult 24593 2332 (.ofNat 1) 0)) .nil) .nil) .nil)) (.node (.node (.node (.node (.leaf (.mult 15739 2246 (.ofNat 1) 0)) .nil) .nil) .nil) (.node (.node (.node (.leaf (.trans [(2986523, .ofNat 1)] 0)) .nil) .nil) .nil))) (.node (.node (.node (.node (.node (.leaf (.mult 14969 1130 (.ofNat 1) 0)) .nil) .nil) .nil) (.node (.node (.node (.leaf (.mult 38299 2464 (.ofNat 1) 0)) .nil) .nil) .nil)) (.node (.node (.node (.node (.leaf (.mult 8273 1146 (.ofNat 1) 0)) .nil) .nil) .nil) (.node (.node (.node (.leaf (.mult 15797 2443 (.ofNat 1) 0)) .nil) .nil) .nil)))))) (.node (.node (.node (.node (.node .nil (.node (.node (.node (.leaf (.mult 23227 1539 (.ofNat 1) 0)) .nil) .nil) .nil)) (.node (.node (.node (.node (.leaf (.mult 11807 2148 (.ofNat 1) 0)) .nil) .nil) .nil) .nil)) (.node (.node (.node (.node (.node (.leaf (.mult 4231 1135 (.ofNat 1) 0)) .nil) .nil) .nil) (.node (.node (.node (.leaf (.mult 37879 2390 (.ofNat 1) 0)) .nil) .nil) .nil)) (.node .nil (.node (.node (.node (.leaf (.mult 24113 2099 (.ofNat 1) 0)) .nil) .nil) .nil)))) (.node (.node (.node .nil (.node (.node (.node (.leaf (.mult 37607 2338 (.ofNat 1) 0)) .nil) .nil) .nil)) (.node .nil (.node (.node (.node (.leaf (.trans [(6708049, .ofNat 1)] 0)) .nil) .nil) .nil))) (.node (.node (.node (.node (.node (.leaf (.trans [(9769, .ofNat 1), (2422597, .negSucc 0)] 0)) .nil) .nil) .nil) (.node (.node (.node (.leaf (.mult 30977 2462 (.ofNat 1) 0)) .nil) .nil) .nil)) (.node (.node (.node (.node (.leaf (.mult 17291 1167 (.ofNat 1) 0)) .nil) .nil) .nil) (.node (.node (.node (.leaf (.mult 8501 2078 (.ofNat 1) 0)) .nil) .nil) .nil))))) (.node (.node (.node (.node .nil (.node (.node (.node (.leaf (.mult 37517 2302 (.ofNat 1) 0)) .nil) .nil) .nil)) (.node (.node (.node (.node (.leaf (.mult 15737 2200 (.ofNat 1) 0)) .nil) .nil) .nil) (.node (.node (.node (.leaf (.trans [(5400697, .ofNat 1)] 0)) .nil) .nil) .nil))) (.node (.node (.node (.node (.node (.leaf (.mult 7649 2047 (.ofNat 1) 0)) .nil) .nil) .nil) .nil) (.node (.node (.node (.node (.leaf (.mult 22717 1092 (.ofNat 2) 1)) .nil) .nil) .nil) (.node (.node (.node (.leaf (.mult 13711 2441 (.ofNat 1) 0)) .nil) .nil) .nil)))) (.node (.node (.node .nil (.node (.node (.node (.leaf (.mult 30707 2358 (.ofNat 1) 0)) .nil) .nil) .nil)) (.node (.node (.node (.node (.leaf (.mult 37441 2281 (.ofNat 1) 0)) .nil) .nil) .nil) (.node (.node (.node (.leaf (.mult 18587 2406 (.ofNat 1) 0)) .nil) .nil) .nil))) (.node (.node (.node (.node (.node (.leaf (.mult 17239 1155 (.ofNat 1) 0)) .nil) .nil) .nil) (.node (.node (.node (.leaf (.trans [(8620967, .ofNat 1)] 0)) .nil) .nil) .nil)) (.node .nil (.node (.node (.node (.leaf (.mult 38317 2471 (.ofNat 1) 0)) .nil) .nil) .nil))))))

def jac280 : JTree := .node (.node (.node (.node (.node (.node .nil (.node (.node (.node (.leaf (.mult 23431 1614 (.ofNat 1) 0)) .nil) .nil) .nil)) (.node (.node (.node (.node (.leaf (.mult 9743 2145 (.ofNat 1) 0)) .nil) .nil) .nil) (.node (.node (.node (.leaf (.trans [(13500791, .ofNat 1)] 0)) .nil) .nil) .nil))) (.node (.node (.node (.node (.node (.leaf (.trans [(371743, .ofNat 1)] 0)) .nil) .nil) .nil) (.node (.node (.node (.leaf (.mult 30839 2381 (.ofNat 1) 0)) .nil) .nil) .nil)) (.node (.node (.node (.node (.leaf (.mult 11251 2256 (.ofNat 1) 0)) .nil) .nil) .nil) (.node (.node (.node (.leaf (.mult 15683 2114 (.ofNat 1) 0)) .nil) .nil) .nil)))) (.node (.node (.node (.node (.node (.node (.leaf (.trans [(106082891, .ofNat 2), (154048627, .negSucc 1), (4461884683, .negSucc 1), (6180335099, .negSucc 1), (6479340851, .ofNat 2), (8974794403, .ofNat 2)] 0)) .nil) .nil) .nil) (.node (.node (.node (.leaf (.mult 37633 2346 (.ofNat 1) 0)) .nil) .nil) .nil)) (.node (.node (.node (.node (.leaf (.mult 8599 2230 (.ofNat 1) 0)) .nil) .nil) .nil) (.node (.node (.node (.leaf (.trans [(7947209, .ofNat 1)] 0)) .nil) .nil) .nil))) (.node (.node (.node (.node (.node (.leaf (.trans [(2064683, .ofNat 1)] 0)) .nil) .nil) .nil) (.node (.node (.node (.leaf (.mult 38069 2426 (.ofNat 1) 0)) .nil) .nil) .nil)) (.node (.node (.node (.node (.leaf (.mult 7243 1115 (.negSucc 1) 1)) .nil) .nil) .nil) (.node (.node (.node (.leaf (.mult 18251 2120 (.ofNat 1) 0)) .nil) .nil) .nil))))) (.node (.node (.node (.node (.node (.node (.node (.leaf (.mult 1291 1152 (.ofNat 2) 0)) .nil) .nil) .nil) (.node (.node (.node (.leaf (.mult 37507 2298 (.ofNat 1) 0)) .nil) .nil) .nil)) (.node (.node (.node (.node (.leaf (.trans [(56342753, .ofNat 1)] 0)) .nil) .nil) .nil) (.node (.node (.node (.leaf (.trans [(31469123243, .ofNat 1), (45697993171, .negSucc 0)] 0)) .nil) .nil) .nil))) (.node (.node (.node (.node (.node (.leaf (.trans [(151719209, .ofNat 1)] 0)) .nil) .nil) .nil) .nil) (.node (.node (.node (.node (.leaf (.trans [(9056029, .negSucc 1)] 1)) .nil) .nil) .nil) (.node (.node (.node (.leaf (.mult 38177 2440 (.ofNat 1) 0)) .nil) .nil) .nil)))) (.node (.node (.node (.node (.node (.node (.leaf (.trans [(407063, .ofNat 1)] 0)) .nil) .nil) .nil) (.node (.node (.node (.leaf (.mult 37967 2398 (.ofNat 1) 0)) .nil) .nil) .nil)) (.node (.node (.node (.node (.leaf (.mult 13693 2269 (.ofNat 1) 0)) .nil) .nil) .nil) (.node (.node (.node (.leaf (.mult 18451 2235 (.ofNat 1) 0)) .nil) .nil) .nil))) (.node (.node (.node (.node (.node (.leaf (.mult 14951 1120 (.negSucc 0) 0)) .nil) .nil) .nil) (.node (.node (.node (.leaf (.mult 38231 2452 (.ofNat 1) 0)) .nil) .nil) .nil)) (.node (.node (.node (.node (.leaf (.mult 29027 1149 (.ofNat 1) 0)) .nil) .nil) .nil) (.node (.node (.node (.leaf (.mult 34841 4859 (.ofNat 1) 0)) .nil) .nil) .nil)))))) (.node (.node (.node (.node (.node (.node (.node (.node (.leaf (.trans [(71033, .ofNat 1)] 0)) .nil) .nil) .nil) (.node (.node (.node (.leaf (.mult 4957 1487 (.negSucc 0) 0)) .nil) .nil) .nil)) (.node (.node (.node (.node (.leaf (.mult 18307 2168 (.ofNat 1) 0)) .nil) .nil) .nil) (.node (.node (.node (.leaf (.mult 18311 2169 (.ofNat 1) 0)) .nil) .nil) .nil))) (.node (.node (.node (.node (.node (.leaf (.mult 4253 2085 (.negSucc 0) 0)) .nil) .nil) .nil) .nil) (.node (.node (.node (.node (.leaf (.mult 28867 1085 (.ofNat 1) 0)) .nil) .nil) .nil) (.node (.node (.node (.leaf (.mult 30391 2118 (.ofNat 1) 0)) .nil) .nil) .nil)))) (.node (.node (.node (.node (.node (.node (.leaf (.mult 6469 1163 (.ofNat 1) 0)) .nil) .nil) .nil) (.node (.node (.node (.leaf (.mult 30661 2325 (.ofNat 1) 0)) .nil) .nil) .nil)) (.node (.node (.node (.node (.leaf (.mult 8597 2228 (.ofNat 1) 0)) .nil) .nil) .nil) (.node (.node (.node (.leaf (.trans [(5414611, .ofNat 1)] 0)) .nil) .nil) .nil))) (.node (.node (.node (.node (.node (.leaf (.mult 29033 1170 (.negSucc 0) 0)) .nil) .nil) .nil) (.node (.node (.node (.leaf (.mult 38119 2431 (.ofNat 1) 0)) .nil) .nil) .nil)) (.node (.node (.node (.node (.leaf (.mult 35617 1615 (.ofNat 1) 0)) .nil) .nil) .nil) (.node (.node (.node (.leaf (.mult 15817 2518 (.ofNat 1) 0)) (.leaf (.mult 15493 1491 (.ofNat 1) 0))) .nil) .nil))))) (.node (.node (.node (.node (.node (.node (.node (.leaf (.mult 9677 1063 (.ofNat 1) 0)) .nil) .nil) .nil) (.node (.node (.node (.leaf (.mult 30649 2314 (.ofNat 1) 0)) .nil) .nil) .nil)) (.node (.node (.node (.node (.leaf (.mult 18353 2188 (.ofNat 1) 0)) .nil) .nil) .nil) (.node (.node (.node (.leaf (.trans [(21879971, .ofNat 1)] 0)) .nil) .nil) .nil))) (.node (.node (.node (.node (.node (.leaf (.mult 7673 2071 (.ofNat 1) 0)) .nil) .nil) .nil) (.node (.node (.node (.leaf (.mult 38047 2421 (.ofNat 1) 0)) .nil) .nil) .nil)) (.node (.node (.node (.node (.leaf (.trans [(125249, .ofNat 1)] 0)) .nil) .nil) .nil) (.node (.node (.node (.leaf (.mult 37199 2135 (.ofNat 1) 0)) .nil) .nil) .nil)))) (.node (.node (.node (.node (.node (.node (.leaf (.mult 22699 1080 (.ofNat 1) 0)) .nil) .nil) .nil) (.node (.node (.node (.leaf (.mult 15761 2366 (.ofNat 1) 0)) .nil) .nil) .nil)) (.node (.node (.node (.node (.leaf (.trans [(5083789, .ofNat 1)] 0)) .nil) .nil) .nil) (.node (.node (.node (.leaf (.mult 37189 2129 (.ofNat 1) 0)) .nil) .nil) .nil))) (.node (.node (.node (.node (.node (.leaf (.trans [(15053, .ofNat 1), (15061, .ofNat 1)] 0)) .nil) .nil) .nil) (.node (.node (.node (.leaf (.trans [(2353493, .ofNat 2)] 0)) .nil) .nil) .nil)) (.node (.node (.node (.node (.leaf (.mult 23209 1538 (.ofNat 1) 0)) .nil) .nil) .nil) (.node (.node (.node (.leaf (.mult 46133 4862 (.ofNat 1) 0)) .nil) .nil) .nil))))))

def jac281 : JTree := .node (.node (.node (.node (.node (.node (.node .nil (.node (.node (.leaf (.mult 46601 4933 (.ofNat 1) 0)) .nil) .nil)) (.node (.node (.node (.leaf (.mult 23473 1631 (.ofNat 1) 0)) .nil) .nil) .nil)) (.node (.node (.node (.node (.leaf (.trans [(15199, .ofNat 1), (15217, .ofNat 1)] 0)) .nil) .nil) .nil) .nil)) (.node (.node .nil (.node (.node (.node (.leaf (.mult 39227 2821 (.ofNat 1) 0)) .nil) .nil) .nil)) (.node (.node (.node (.node (.leaf (.mult 7793 2738 (.ofNat 1) 0)) .nil) .nil) .nil) (.node (.node (.node (.leaf (.mult 39953 2966 (.ofNat 1) 0)) .nil) .nil) .nil)))) (.node (.node (.node (.node (.node (.node (.leaf (.trans [(2848253, .negSucc 0)] 0)) .nil) .nil) .nil) (.node (.node (.node (.leaf (.mult 25171 2771 (.ofNat 1) 0)) .nil) .nil) .nil)) (.node (.node (.node (.node (.leaf (.mult 10273 2657 (.ofNat 1) 0)) .nil) .nil) .nil) (.node (.node (.node (.leaf (.trans [(8241151, .ofNat 1)] 0)) .nil) .nil) .nil))) (.node (.node (.node (.node (.node (.leaf (.mult 10267 2536 (.ofNat 1) 0)) .nil) .nil) .nil) (.node (.node (.node (.leaf (.mult 39451 2873 (.ofNat 1) 0)) .nil) .nil) .nil)) (.node (.node (.node (.node (.leaf (.trans [(713953, .ofNat 2)] 1)) .nil) .nil) .nil) (.node (.node (.node (.leaf (.mult 13763 2572 (.ofNat 1) 0)) .nil) .nil) .nil))))) (.node (.node (.node (.node (.node (.node (.node (.leaf (.trans [(69527, .negSucc 0)] 0)) .nil) .nil) .nil) (.node (.node (.node (.leaf (.mult 3067 1549 (.negSucc 0) 0)) .nil) .nil) .nil)) (.node (.node (.node (.node (.leaf (.mult 31223 2631 (.ofNat 1) 0)) .nil) .nil) .nil) (.node (.node (.node (.leaf (.mult 31249 2666 (.ofNat 1) 0)) .nil) .nil) .nil))) (.node (.node (.node (.node (.node (.leaf (.mult 4283 2576 (.ofNat 1) 0)) .nil) .nil) .nil) (.node (.node (.node (.leaf (.mult 25357 2869 (.ofNat 1) 0)) .nil) .nil) .nil)) (.node (.node (.node (.node (.leaf (.mult 29123 1230 (.ofNat 1) 0)) .nil) .nil) .nil) (.node (.node (.node (.leaf (.mult 31177 2593 (.ofNat 1) 0)) .nil) .nil) .nil)))) (.node (.node (.node (.node (.node (.node (.leaf (.mult 6551 1319 (.ofNat 1) 0)) .nil) .nil) .nil) (.node (.node (.node (.leaf (.trans [(1104450901, .negSucc 0)] 0)) .nil) .nil) .nil)) (.node (.node (.node (.node (.leaf (.trans [(1122307, .ofNat 1)] 0)) .nil) .nil) .nil) .nil)) (.node (.node (.node (.node (.node (.leaf (.trans [(649199, .ofNat 1)] 0)) .nil) .nil) .nil) (.node (.node (.node (.leaf (.mult 31649 2885 (.ofNat 1) 0)) .nil) .nil) .nil)) (.node (.node (.node (.node (.leaf (.mult 17431 1302 (.ofNat 1) 0)) .nil) .nil) .nil) (.node (.node (.node (.leaf (.mult 40009 2974 (.ofNat 1) 0)) (.leaf (.trans [(15497, .ofNat 1)] 0))) .nil) .nil)))))) (.node (.node (.node (.node (.node .nil (.node (.node (.node (.leaf (.mult 10949 1306 (.ofNat 1) 0)) .nil) .nil) .nil)) (.node (.node (.node (.node (.leaf (.mult 11821 2608 (.ofNat 1) 0)) .nil) .nil) .nil) (.node (.node (.node (.leaf (.trans [(5609749, .negSucc 0)] 0)) .nil) .nil) .nil))) (.node (.node (.node (.node (.node (.leaf (.mult 2099 1267 (.ofNat 1) 0)) .nil) .nil) .nil) (.node (.node (.node (.leaf (.mult 31543 2837 (.ofNat 1) 0)) .nil) .nil) .nil)) (.node (.node (.node (.node (.leaf (.mult 13807 2723 (.ofNat 1) 0)) .nil) .nil) .nil) (.node (.node (.node (.leaf (.mult 13757 2557 (.ofNat 1) 0)) .nil) .nil) .nil)))) (.node (.node (.node (.node (.node (.node (.leaf (.mult 4073 1270 (.ofNat 1) 0)) .nil) .nil) .nil) (.node (.node (.node (.leaf (.mult 25307 2802 (.ofNat 1) 0)) .nil) .nil) .nil)) (.node (.node (.node (.node (.leaf (.mult 8753 2697 (.ofNat 1) 0)) .nil) .nil) .nil) (.node (.node (.node (.leaf (.mult 19183 2684 (.ofNat 1) 0)) .nil) .nil) .nil))) (.node (.node (.node (.node (.node (.leaf (.trans [(755141381, .negSucc 1)] 0)) .nil) .nil) .nil) (.node (.node (.node (.leaf (.mult 31601 2877 (.ofNat 1) 0)) .nil) .nil) .nil)) (.node (.node (.node (.node (.leaf (.mult 17393 1296 (.ofNat 1) 0)) .nil) .nil) .nil) (.node (.node (.node (.leaf (.mult 39623 2899 (.ofNat 1) 0)) .nil) .nil) .nil))))) (.node (.node (.node (.node .nil (.node (.node (.node (.leaf (.mult 19231 2755 (.ofNat 1) 0)) .nil) .nil) .nil)) (.node (.node (.node (.node (.leaf (.mult 7027 2644 (.ofNat 1) 0)) .nil) .nil) .nil) (.node (.node (.node (.leaf (.trans [(14185813, .ofNat 1)] 0)) .nil) .nil) .nil))) (.node (.node (.node (.node (.node (.leaf (.trans [(2871307, .ofNat 1)] 0)) .nil) .nil) .nil) (.node (.node (.node (.leaf (.mult 39419 2867 (.ofNat 1) 0)) .nil) .nil) .nil)) (.node (.node (.node (.node (.leaf (.trans [(9108613, .ofNat 2)] 1)) .nil) .nil) .nil) (.node (.node (.node (.leaf (.mult 19301 2858 (.ofNat 1) 0)) .nil) .nil) .nil)))) (.node (.node (.node (.node (.node (.node (.leaf (.trans [(1559639, .ofNat 1)] 0)) .nil) .nil) .nil) (.node (.node (.node (.leaf (.mult 39373 2850 (.ofNat 1) 0)) .nil) .nil) .nil)) (.node (.node (.node (.node (.leaf (.mult 15913 2731 (.ofNat 1) 0)) .nil) .nil) .nil) (.node (.node (.node (.leaf (.mult 39883 2955 (.ofNat 1) 0)) .nil) .nil) .nil))) (.node (.node (.node (.node (.node (.leaf (.mult 17333 1216 (.ofNat 1) 0)) .nil) .nil) .nil) (.node (.node (.node (.leaf (.mult 25391 2906 (.ofNat 1) 0)) .nil) .nil) .nil)) (.node (.node (.node (.node (.leaf (.mult 6971 1254 (.ofNat 1) 0)) .nil) .nil) .nil) (.node (.node (.node (.leaf (.mult 46171 4870 (.ofNat 1) 0)) .nil) .nil) .nil))))))

def jac282 : JTree := .node (.node (.node (.node (.node (.node (.node .nil (.node (.node (.leaf (.mult 46639 4937 (.negSucc 0) 0)) .nil) .nil)) (.node (.node (.node (.leaf (.mult 29453 1499 (.ofNat 1) 0)) .nil) .nil) .nil)) (.node (.node (.node (.node (.leaf (.trans [(17387, .ofNat 1), (17389, .negSucc 0)] 0)) .nil) .nil) .nil) (.node (.node (.node (.leaf (.mult 18797 2560 (.negSucc 0) 0)) .nil) .nil) .nil))) (.node (.node .nil (.node (.node (.node (.leaf (.mult 31513 2829 (.ofNat 1) 0)) .nil) .nil) .nil)) (.node (.node (.node (.node (.leaf (.mult 25111 2714 (.ofNat 1) 0)) .nil) .nil) .nil) (.node (.node (.node (.leaf (.mult 39979 2969 (.ofNat 1) 0)) .nil) .nil) .nil)))) (.node (.node (.node (.node (.node (.node (.leaf (.trans [(18702763, .negSucc 0)] 0)) .nil) .nil) .nil) (.node (.node (.node (.leaf (.mult 5333 2778 (.ofNat 2) 1)) .nil) .nil) .nil)) (.node (.node (.node (.node (.leaf (.mult 12377 2676 (.ofNat 1) 0)) .nil) .nil) .nil) (.node (.node (.node (.leaf (.trans [(1019633, .ofNat 1)] 0)) .nil) .nil) .nil))) (.node .nil (.node .nil (.node (.node (.node (.leaf (.mult 39971 2967 (.ofNat 1) 0)) .nil) .nil) .nil))))) (.node (.node (.node (.node (.node (.node (.node (.leaf (.trans [(713953, .ofNat 2)] 1)) .nil) .nil) .nil) .nil) (.node (.node (.node (.node (.leaf (.mult 5639 2639 (.ofNat 1) 0)) .nil) .nil) .nil) (.node (.node (.node (.leaf (.trans [(2753243, .ofNat 1)] 0)) .nil) .nil) .nil))) (.node (.node (.node (.node (.node (.leaf (.trans [(587663, .ofNat 1)] 0)) .nil) .nil) .nil) .nil) (.node (.node (.node (.node (.leaf (.mult 29101 1227 (.ofNat 2) 1)) .nil) .nil) .nil) (.node (.node (.node (.leaf (.trans [(1039006027, .ofNat 1)] 0)) .nil) .nil) .nil)))) (.node (.node (.node .nil (.node (.node (.node (.leaf (.mult 39119 2788 (.ofNat 1) 0)) .nil) .nil) .nil)) (.node .nil (.node (.node (.node (.leaf (.trans [(5513047, .ofNat 1)] 0)) .nil) .nil) .nil))) (.node (.node (.node (.node (.node (.leaf (.mult 15137 1203 (.ofNat 1) 0)) .nil) .nil) .nil) (.node (.node (.node (.leaf (.mult 39439 2870 (.ofNat 1) 0)) .nil) .nil) .nil)) (.node (.node (.node (.node (.leaf (.mult 35803 1635 (.ofNat 1) 0)) .nil) .nil) .nil) (.node (.node (.node (.leaf (.mult 39989 2972 (.ofNat 1) 0)) (.leaf (.mult 2393 1643 (.ofNat 1) 0))) .nil) .nil)))))) (.node (.node (.node (.node (.node (.node (.node (.node (.leaf (.trans [(74429, .ofNat 1)] 0)) .nil) .nil) .nil) (.node (.node (.node (.leaf (.mult 23321 1579 (.ofNat 1) 0)) .nil) .nil) .nil)) (.node (.node (.node (.node (.leaf (.mult 11273 2612 (.ofNat 1) 0)) .nil) .nil) .nil) (.node (.node (.node (.leaf (.trans [(14106347, .ofNat 1)] 0)) .nil) .nil) .nil))) (.node (.node (.node (.node (.node (.leaf (.trans [(314519, .ofNat 1)] 0)) .nil) .nil) .nil) (.node (.node (.node (.leaf (.mult 15937 2845 (.ofNat 1) 0)) .nil) .nil) .nil)) (.node .nil (.node (.node (.node (.leaf (.mult 24889 2594 (.ofNat 1) 0)) .nil) .nil) .nil)))) (.node (.node (.node (.node (.node (.node (.leaf (.mult 5501 1214 (.ofNat 1) 0)) .nil) .nil) .nil) (.node (.node (.node (.leaf (.mult 25253 2794 (.ofNat 1) 0)) .nil) .nil) .nil)) (.node (.node (.node (.node (.leaf (.mult 38861 2702 (.ofNat 1) 0)) .nil) .nil) .nil) (.node (.node (.node (.leaf (.trans [(1548132011, .negSucc 0)] 0)) .nil) .nil) .nil))) (.node (.node (.node (.node (.node (.leaf (.mult 8677 2530 (.ofNat 1) 0)) .nil) .nil) .nil) (.node (.node (.node (.leaf (.mult 31663 2911 (.ofNat 1) 0)) .nil) .nil) .nil)) (.node (.node (.node (.node (.leaf (.mult 17443 1305 (.ofNat 1) 0)) .nil) .nil) .nil) (.node (.node (.node (.leaf (.mult 19427 2949 (.ofNat 1) 0)) .nil) .nil) .nil))))) (.node (.node (.node (.node .nil (.node (.node (.node (.leaf (.mult 19237 2763 (.ofNat 1) 0)) .nil) .nil) .nil)) (.node (.node (.node (.node (.leaf (.mult 15889 2663 (.ofNat 1) 0)) .nil) .nil) .nil) (.node (.node (.node (.leaf (.trans [(5767037, .ofNat 2)] 0)) .nil) .nil) .nil))) (.node (.node (.node (.node (.node (.leaf (.mult 7351 2707 (.ofNat 1) 0)) .nil) .nil) .nil) .nil) (.node (.node (.node (.node (.leaf (.mult 22859 1238 (.ofNat 2) 1)) .nil) .nil) .nil) (.node (.node (.node (.leaf (.mult 19387 2866 (.ofNat 1) 0)) .nil) .nil) .nil)))) (.node (.node (.node (.node (.node (.node (.leaf (.mult 2017 1308 (.ofNat 1) 0)) .nil) .nil) .nil) (.node (.node (.node (.leaf (.mult 31393 2813 (.negSucc 1) 1)) .nil) .nil) .nil)) (.node (.node (.node (.node (.leaf (.trans [(3199873, .ofNat 1)] 0)) .nil) .nil) .nil) (.node (.node (.node (.leaf (.mult 19373 2863 (.ofNat 1) 0)) .nil) .nil) .nil))) (.node (.node (.node (.node (.node (.leaf (.mult 17377 1266 (.ofNat 1) 0)) .nil) .nil) .nil) (.node (.node (.node (.leaf (.mult 31847 2951 (.negSucc 0) 0)) .nil) .nil) .nil)) (.node (.node (.node (.node (.leaf (.mult 22877 1283 (.ofNat 1) 0)) .nil) .nil) .nil) (.node (.node (.node (.leaf (.mult 34897 4873 (.ofNat 1) 0)) .nil) .nil) .nil))))))

def jac283 : JTree := .node (.node (.node (.node (.node (.node (.node .nil (.node (.node (.leaf (.mult 46633 4936 (.ofNat 1) 0)) .nil) .nil)) .nil) (.node (.node (.node (.node (.leaf (.trans [(3371, .ofNat 1), (15259, .ofNat 1)] 0)) .nil) .nil) .nil) (.node (.node (.node (.leaf (.mult 31139 2563 (.negSucc 0) 0)) .nil) .nil) .nil))) (.node (.node (.node (.node (.node (.leaf (.trans [(1261787, .negSucc 1)] 0)) .nil) .nil) .nil) (.node (.node (.node (.leaf (.mult 15923 2825 (.ofNat 1) 0)) .nil) .nil) .nil)) (.node (.node (.node (.node (.leaf (.trans [(17974919, .ofNat 1)] 0)) .nil) .nil) .nil) (.node (.node (.node (.leaf (.mult 18911 2575 (.ofNat 1) 0)) .nil) .nil) .nil)))) (.node (.node (.node (.node (.node (.node (.leaf (.trans [(18285601, .negSucc 0)] 0)) .nil) .nil) .nil) (.node (.node (.node (.leaf (.mult 8783 2775 (.ofNat 1) 0)) .nil) .nil) .nil)) (.node (.node (.node (.node (.leaf (.mult 25013 2675 (.ofNat 1) 0)) .nil) .nil) .nil) (.node (.node (.node (.leaf (.trans [(2378689, .ofNat 1)] 0)) .nil) .nil) .nil))) (.node (.node (.node (.node (.node (.leaf (.mult 38677 2544 (.ofNat 1) 0)) .nil) .nil) .nil) (.node (.node (.node (.leaf (.mult 39827 2933 (.ofNat 1) 0)) .nil) .nil) .nil)) (.node (.node (.node (.node (.leaf (.mult 13291 1244 (.ofNat 1) 0)) .nil) .nil) .nil) (.node (.node (.node (.leaf (.mult 13759 2568 (.ofNat 1) 0)) .nil) .nil) .nil))))) (.node (.node (.node (.node (.node (.node (.node (.leaf (.trans [(3651, .ofNat 2)] 1)) .nil) .nil) .nil) (.node (.node (.node (.leaf (.mult 3209 1581 (.negSucc 0) 0)) .nil) .nil) .nil)) (.node (.node (.node (.node (.leaf (.mult 6269 2659 (.ofNat 1) 0)) .nil) .nil) .nil) (.node (.node (.node (.leaf (.trans [(5380201, .ofNat 1)] 0)) .nil) .nil) .nil))) (.node (.node (.node (.node (.node (.leaf (.trans [(314519, .ofNat 1), (400219, .ofNat 1)] 0)) .nil) .nil) .nil) (.node (.node (.node (.leaf (.mult 31657 2902 (.ofNat 1) 0)) .nil) .nil) .nil)) (.node (.node (.node (.node (.leaf (.mult 13229 1231 (.ofNat 2) 1)) .nil) .nil) .nil) (.node (.node (.node (.leaf (.mult 31147 2569 (.ofNat 1) 0)) .nil) .nil) .nil)))) (.node (.node (.node .nil (.node (.node (.node (.leaf (.mult 25219 2784 (.ofNat 1) 0)) .nil) .nil) .nil)) (.node (.node (.node (.node (.leaf (.trans [(400531, .ofNat 1)] 0)) .nil) .nil) .nil) (.node (.node (.node (.leaf (.trans [(17372941, .ofNat 1)] 0)) .nil) .nil) .nil))) (.node (.node .nil (.node (.node (.node (.leaf (.mult 39847 2941 (.ofNat 1) 0)) .nil) .nil) .nil)) (.node (.node (.node (.node (.leaf (.mult 17417 1299 (.ofNat 1) 0)) .nil) .nil) .nil) (.node (.node (.node (.leaf (.mult 39983 2971 (.ofNat 1) 0)) (.leaf (.mult 1031 1582 (.ofNat 1) 0))) .nil) .nil)))))) (.node (.node (.node (.node (.node .nil (.node (.node (.node (.leaf (.mult 23459 1630 (.ofNat 1) 0)) .nil) .nil) .nil)) (.node .nil (.node (.node (.node (.leaf (.trans [(2106319, .ofNat 1)] 0)) .nil) .nil) .nil))) (.node (.node (.node (.node (.node (.leaf (.mult 4057 1210 (.ofNat 1) 0)) .nil) .nil) .nil) (.node (.node (.node (.leaf (.mult 39317 2841 (.negSucc 0) 0)) .nil) .nil) .nil)) (.node .nil (.node (.node (.node (.leaf (.mult 13751 2554 (.ofNat 1) 0)) .nil) .nil) .nil)))) (.node (.node (.node .nil (.node (.node (.node (.leaf (.mult 31357 2792 (.ofNat 1) 0)) .nil) .nil) .nil)) (.node (.node (.node (.node (.leaf (.mult 38783 2686 (.ofNat 1) 0)) .nil) .nil) .nil) (.node (.node (.node (.leaf (.mult 31253 2698 (.ofNat 1) 0)) .nil) .nil) .nil))) (.node (.node (.node (.node (.node (.leaf (.trans [(7789, .ofNat 1), (9811, .ofNat 1)] 0)) .nil) .nil) .nil) (.node (.node (.node (.leaf (.mult 39841 2939 (.ofNat 1) 0)) .nil) .nil) .nil)) (.node (.node (.node (.node (.leaf (.mult 15263 1310 (.ofNat 1) 0)) .nil) .nil) .nil) (.node (.node (.node (.leaf (.mult 19403 2900 (.ofNat 1) 0)) .nil) .nil) .nil))))) (.node (.node (.node (.node (.node (.node (.node (.leaf (.trans [(20371411, .negSucc 0)] 0)) .nil) .nil) .nil) (.node (.node (.node (.leaf (.mult 39041 2759 (.negSucc 0) 0)) .nil) .nil) .nil)) (.node (.node (.node (.node (.leaf (.mult 7027 2644 (.negSucc 0) 0)) .nil) .nil) .nil) (.node (.node (.node (.leaf (.trans [(2741129, .ofNat 1)] 0)) .nil) .nil) .nil))) (.node (.node (.node (.node (.node (.leaf (.trans [(232343, .negSucc 0)] 0)) .nil) .nil) .nil) (.node (.node (.node (.leaf (.mult 39631 2901 (.ofNat 1) 0)) .nil) .nil) .nil)) (.node (.node (.node (.node (.leaf (.mult 22871 1248 (.negSucc 1) 1)) .nil) .nil) .nil) (.node (.node (.node (.leaf (.mult 38959 2750 (.ofNat 1) 0)) .nil) .nil) .nil)))) (.node (.node (.node (.node (.node (.node (.leaf (.trans [(467771, .ofNat 2)] 0)) .nil) .nil) .nil) (.node (.node (.node (.leaf (.mult 19267 2853 (.ofNat 1) 0)) .nil) .nil) .nil)) (.node (.node (.node (.node (.leaf (.mult 5107 2735 (.ofNat 1) 0)) .nil) .nil) .nil) (.node (.node (.node (.leaf (.mult 39569 2892 (.ofNat 1) 0)) .nil) .nil) .nil))) (.node (.node (.node (.node (.node (.leaf (.mult 15259 1295 (.ofNat 1) 0)) .nil) .nil) .nil) (.node (.node (.node (.leaf (.mult 19429 2950 (.negSucc 0) 0)) .nil) .nil) .nil)) (.node .nil (.node (.node (.node (.leaf (.mult 31727 2922 (.ofNat 1) 0)) .nil) .nil) .nil))))))

def jac284 : JTree := .node (.node (.node (.node (.node (.node .nil (.node (.node (.node (.leaf (.mult 29599 1544 (.ofNat 1) 0)) .nil) .nil) .nil)) (.node (.node (.node (.node (.leaf (.mult 3863 2604 (.ofNat 1) 0)) .nil) .nil) .nil) (.node (.node (.node (.leaf (.mult 31193 2617 (.ofNat 1) 0)) .nil) .nil) .nil))) (.node (.node (.node (.node (.node (.leaf (.trans [(547721, .ofNat 1)] 0)) .nil) .nil) .nil) (.node (.node (.node (.leaf (.mult 39293 2833 (.ofNat 1) 0)) .nil) .nil) .nil)) (.node (.node (.node (.node (.leaf (.mult 38903 2722 (.ofNat 1) 0)) .nil) .nil) .nil) (.node (.node (.node (.leaf (.mult 39877 2948 (.ofNat 1) 0)) .nil) .nil) .nil)))) (.node (.node (.node (.node (.node (.node (.leaf (.mult 857 1286 (.ofNat 1) 0)) .nil) .nil) .nil) (.node (.node (.node (.leaf (.mult 31387 2800 (.ofNat 1) 0)) .nil) .nil) .nil)) (.node (.node (.node (.node (.leaf (.mult 25031 2679 (.ofNat 1) 0)) .nil) .nil) .nil) (.node (.node (.node (.leaf (.trans [(2821757, .ofNat 1)] 0)) .nil) .nil) .nil))) (.node (.node (.node (.node (.node (.leaf (.trans [(886045579, .negSucc 1)] 0)) .nil) .nil) .nil) (.node (.node (.node (.leaf (.mult 31627 2879 (.ofNat 1) 0)) .nil) .nil) .nil)) (.node (.node (.node (.node (.leaf (.trans [(3797881, .ofNat 1)] 0)) .nil) .nil) .nil) (.node (.node (.node (.leaf (.mult 18913 2578 (.ofNat 1) 0)) .nil) .nil) .nil))))) (.node (.node (.node (.node .nil (.node (.node (.node (.leaf (.mult 38977 2753 (.negSucc 0) 0)) .nil) .nil) .nil)) (.node (.node (.node (.node (.leaf (.mult 5623 2636 (.ofNat 1) 0)) .nil) .nil) .nil) (.node (.node (.node (.leaf (.trans [(6597419, .ofNat 1)] 0)) .nil) .nil) .nil))) (.node .nil (.node (.node (.node (.node (.leaf (.mult 29129 1233 (.ofNat 2) 1)) .nil) .nil) .nil) (.node (.node (.node (.leaf (.mult 19219 2752 (.ofNat 1) 0)) .nil) .nil) .nil)))) (.node (.node (.node (.node (.node (.node (.leaf (.mult 4159 2539 (.ofNat 1) 0)) .nil) .nil) .nil) (.node (.node (.node (.leaf (.mult 19249 2809 (.ofNat 1) 0)) .nil) .nil) .nil)) (.node (.node (.node (.node (.leaf (.mult 38921 2730 (.ofNat 1) 0)) .nil) .nil) .nil) (.node (.node (.node (.leaf (.trans [(7225499, .ofNat 1)] 0)) .nil) .nil) .nil))) (.node (.node (.node (.node (.node (.leaf (.trans [(3371, .ofNat 1)] 0)) .nil) .nil) .nil) (.node (.node (.node (.leaf (.mult 39799 2930 (.ofNat 1) 0)) .nil) .nil) .nil)) (.node (.node (.node (.node (.leaf (.mult 22907 1301 (.ofNat 1) 0)) .nil) .nil) .nil) (.node (.node (.node (.leaf (.mult 31183 2602 (.ofNat 1) 0)) (.leaf (.trans [(46199, .ofNat 1)] 0))) .nil) .nil)))))) (.node (.node (.node (.node (.node (.node (.node (.node (.leaf (.trans [(18681679, .negSucc 0)] 0)) .nil) .nil) .nil) (.node (.node (.node (.leaf (.mult 3709 1324 (.negSucc 0) 0)) .nil) .nil) .nil)) (.node (.node (.node (.node (.leaf (.mult 24923 2627 (.ofNat 1) 0)) .nil) .nil) .nil) (.node (.node (.node (.leaf (.trans [(18440267, .ofNat 1)] 0)) .nil) .nil) .nil))) (.node (.node (.node (.node (.node (.leaf (.trans [(435049, .ofNat 1)] 0)) .nil) .nil) .nil) (.node (.node (.node (.leaf (.mult 19289 2857 (.ofNat 1) 0)) .nil) .nil) .nil)) (.node (.node (.node (.node (.leaf (.mult 29077 1225 (.ofNat 1) 0)) .nil) .nil) .nil) (.node (.node (.node (.leaf (.mult 24859 2570 (.ofNat 1) 0)) .nil) .nil) .nil)))) (.node (.node (.node (.node (.node (.node (.leaf (.mult 5503 1274 (.ofNat 1) 0)) .nil) .nil) .nil) (.node (.node (.node (.leaf (.trans [(39103, .negSucc 0)] 0)) .nil) .nil) .nil)) (.node (.node (.node (.node (.leaf (.mult 38833 2691 (.ofNat 1) 0)) .nil) .nil) .nil) (.node (.node (.node (.leaf (.trans [(2847703, .negSucc 0)] 0)) .nil) .nil) .nil))) (.node (.node .nil (.node (.node (.node (.leaf (.mult 39719 2914 (.ofNat 1) 0)) .nil) .nil) .nil)) (.node (.node (.node (.node (.leaf (.mult 9719 1250 (.ofNat 1) 0)) .nil) .nil) .nil) (.node (.node (.node (.leaf (.trans [(19427, .ofNat 1), (19429, .ofNat 1)] 0)) .nil) .nil) .nil))))) (.node (.node (.node (.node (.node (.node (.node (.leaf (.mult 7591 1198 (.negSucc 0) 0)) .nil) .nil) .nil) (.node (.node (.node (.leaf (.mult 25169 2767 (.ofNat 1) 0)) .nil) .nil) .nil)) (.node (.node (.node (.node (.leaf (.mult 38767 2654 (.ofNat 1) 0)) .nil) .nil) .nil) (.node (.node (.node (.leaf (.mult 19157 2671 (.ofNat 1) 0)) .nil) .nil) .nil))) (.node (.node (.node (.node (.node (.leaf (.mult 10247 2524 (.ofNat 1) 0)) .nil) .nil) .nil) (.node (.node (.node (.leaf (.mult 39709 2910 (.ofNat 1) 0)) .nil) .nil) .nil)) (.node (.node (.node (.node (.leaf (.trans [(7141721, .ofNat 2)] 1)) .nil) .nil) .nil) (.node (.node (.node (.leaf (.trans [(19416877, .negSucc 0)] 0)) .nil) .nil) .nil)))) (.node (.node (.node .nil (.node (.node (.node (.leaf (.mult 31469 2817 (.ofNat 1) 0)) .nil) .nil) .nil)) (.node (.node (.node (.node (.leaf (.mult 11299 2740 (.ofNat 1) 0)) .nil) .nil) .nil) .nil)) (.node (.node (.node (.node (.node (.leaf (.mult 15217 1269 (.ofNat 1) 0)) .nil) .nil) .nil) (.node (.node (.node (.leaf (.mult 18859 2564 (.ofNat 1) 0)) .nil) .nil) .nil)) (.node (.node (.node (.node (.leaf (.mult 12203 1492 (.ofNat 1) 0)) .nil) .nil) .nil) (.node (.node (.node (.leaf (.mult 46619 4935 (.ofNat 1) 0)) .nil) .nil) .nil))))))

end BP.EL
