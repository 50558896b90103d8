import Verif.Lemmas.JTree

/-!
# Generated by tools/gen_invariance.py
-/

namespace BP.EL

def turnQ3_1 : JTree := .node (.node (.node (.nil) (.node (.node (.node (.node (.node (.leaf (.atom 283)) (.nil)) (.nil)) (.nil)) (.nil)) (.node (.node (.node (.node (.leaf (.atom 739)) (.nil)) (.nil)) (.nil)) (.node (.node (.node (.leaf (.atom 1279)) (.nil)) (.nil)) (.nil))))) (.node (.node (.node (.node (.node (.node (.leaf (.trans [(3284791, .ofNat 1), (4943311, .negSucc 0)] 0)) (.nil)) (.nil)) (.nil)) (.node (.node (.node (.leaf (.trans [(3758, .ofNat 1), (5631, .negSucc 0)] 0)) (.nil)) (.nil)) (.nil))) (.nil)) (.node (.node (.node (.node (.node (.leaf (.trans [(3111, .ofNat 1), (192694, .negSucc 0), (229274, .ofNat 1), (5182383, .ofNat 1), (6924417, .ofNat 1)] 0)) (.nil)) (.nil)) (.nil)) (.nil)) (.nil)))) (.node (.node (.node (.node (.node (.node (.node (.leaf (.trans [(391, .ofNat 1)] 0)) (.nil)) (.nil)) (.nil)) (.node (.node (.node (.leaf (.atom 983)) (.nil)) (.nil)) (.nil))) (.nil)) (.node (.node (.node (.node (.node (.leaf (.atom 449)) (.nil)) (.nil)) (.nil)) (.nil)) (.node (.nil) (.node (.node (.node (.leaf (.atom 1409)) (.nil)) (.nil)) (.nil))))) (.node (.nil) (.node (.node (.node (.node (.node (.leaf (.atom 593)) (.nil)) (.nil)) (.nil)) (.nil)) (.node (.node (.node (.node (.leaf (.atom 887)) (.nil)) (.nil)) (.nil)) (.node (.node (.node (.nil) (.leaf (.trans [(3554, .negSucc 0), (5277, .negSucc 0)] 0))) (.nil)) (.nil))))))

def turnQ3_2 : JTree := .node (.node (.node (.node (.node (.node (.node (.node (.leaf (.trans [(4331, .ofNat 1)] 0)) (.nil)) (.nil)) (.nil)) (.node (.node (.node (.leaf (.atom 971)) (.nil)) (.nil)) (.nil))) (.nil)) (.node (.nil) (.node (.node (.node (.node (.leaf (.atom 761)) (.nil)) (.nil)) (.nil)) (.node (.node (.node (.leaf (.trans [(3602, .negSucc 0), (5367, .negSucc 0)] 0)) (.nil)) (.nil)) (.nil))))) (.node (.nil) (.node (.nil) (.node (.node (.node (.node (.leaf (.atom 809)) (.nil)) (.nil)) (.nil)) (.node (.node (.node (.leaf (.atom 1597)) (.nil)) (.nil)) (.nil)))))) (.node (.node (.nil) (.node (.nil) (.node (.nil) (.node (.node (.node (.leaf (.atom 1487)) (.leaf (.atom 1601))) (.nil)) (.nil))))) (.node (.node (.node (.nil) (.node (.node (.node (.leaf (.atom 1117)) (.nil)) (.nil)) (.nil))) (.node (.node (.node (.node (.leaf (.atom 677)) (.nil)) (.nil)) (.nil)) (.node (.node (.node (.leaf (.atom 1193)) (.nil)) (.nil)) (.nil)))) (.node (.nil) (.node (.node (.node (.node (.leaf (.atom 929)) (.nil)) (.nil)) (.nil)) (.nil)))))

def turnQ3_3 : JTree := .node (.node (.node (.node (.node (.node (.node (.node (.leaf (.atom 37)) (.nil)) (.nil)) (.nil)) (.node (.node (.node (.leaf (.trans [(1642, .ofNat 1)] 0)) (.nil)) (.nil)) (.nil))) (.nil)) (.node (.nil) (.node (.nil) (.node (.node (.node (.leaf (.atom 1303)) (.nil)) (.nil)) (.nil))))) (.node (.nil) (.node (.node (.node (.node (.node (.leaf (.atom 503)) (.nil)) (.nil)) (.nil)) (.nil)) (.node (.node (.node (.node (.leaf (.trans [(3, .negSucc 0)] 0)) (.nil)) (.nil)) (.nil)) (.node (.node (.node (.leaf (.atom 1559)) (.nil)) (.nil)) (.nil)))))) (.node (.node (.node (.node (.nil) (.node (.node (.node (.leaf (.atom 1033)) (.nil)) (.nil)) (.nil))) (.node (.node (.node (.node (.leaf (.atom 631)) (.nil)) (.nil)) (.nil)) (.nil))) (.node (.node (.node (.node (.node (.leaf (.atom 491)) (.nil)) (.nil)) (.nil)) (.nil)) (.node (.nil) (.node (.node (.node (.leaf (.atom 1447)) (.nil)) (.nil)) (.nil))))) (.node (.node (.node (.nil) (.node (.node (.node (.leaf (.atom 1093)) (.nil)) (.nil)) (.nil))) (.node (.node (.node (.node (.leaf (.atom 661)) (.nil)) (.nil)) (.nil)) (.nil))) (.node (.nil) (.node (.node (.node (.node (.leaf (.trans [(2816938, .ofNat 1), (2856734, .ofNat 1), (4205991, .negSucc 0), (4280127, .ofNat 1)] 0)) (.nil)) (.nil)) (.nil)) (.node (.node (.node (.nil) (.leaf (.atom 1709))) (.nil)) (.nil))))))

def turnQ3_4 : JTree := .node (.node (.node (.nil) (.node (.node (.node (.node (.node (.leaf (.atom 409)) (.nil)) (.nil)) (.nil)) (.node (.node (.node (.leaf (.atom 1163)) (.nil)) (.nil)) (.nil))) (.node (.nil) (.node (.node (.node (.leaf (.atom 1327)) (.nil)) (.nil)) (.nil))))) (.node (.nil) (.node (.node (.node (.node (.node (.leaf (.atom 577)) (.nil)) (.nil)) (.nil)) (.nil)) (.node (.node (.node (.node (.leaf (.atom 839)) (.nil)) (.nil)) (.nil)) (.node (.node (.node (.nil) (.leaf (.atom 1627))) (.nil)) (.nil)))))) (.node (.node (.node (.node (.nil) (.node (.node (.node (.leaf (.atom 1063)) (.nil)) (.nil)) (.nil))) (.nil)) (.nil)) (.node (.node (.node (.node (.node (.node (.leaf (.trans [(46, .ofNat 1), (1653, .negSucc 0)] 0)) (.nil)) (.nil)) (.nil)) (.nil)) (.node (.nil) (.node (.node (.node (.leaf (.trans [(3902, .ofNat 1), (5847, .ofNat 1)] 0)) (.nil)) (.nil)) (.nil)))) (.node (.nil) (.node (.node (.node (.node (.leaf (.trans [(1493578, .ofNat 1), (1525418, .negSucc 0), (2814679678, .negSucc 0), (4241509509, .negSucc 0)] 0)) (.nil)) (.nil)) (.nil)) (.nil)))))

def turnQ3_5 : JTree := .node (.node (.node (.node (.node (.node (.node (.node (.leaf (.atom 19)) (.nil)) (.nil)) (.nil)) (.nil)) (.nil)) (.node (.node (.node (.node (.node (.leaf (.atom 311)) (.nil)) (.nil)) (.nil)) (.nil)) (.node (.nil) (.node (.node (.node (.leaf (.trans [(900411086, .ofNat 1), (1032671018, .ofNat 1), (1916441673, .negSucc 0), (2197944699, .negSucc 0), (30607517734, .negSucc 0), (35103406642, .negSucc 0)] 0)) (.nil)) (.nil)) (.nil))))) (.nil)) (.node (.node (.node (.node (.nil) (.node (.node (.node (.leaf (.atom 1013)) (.nil)) (.nil)) (.nil))) (.nil)) (.node (.node (.node (.node (.node (.leaf (.atom 463)) (.nil)) (.nil)) (.nil)) (.nil)) (.node (.nil) (.node (.node (.node (.leaf (.atom 1427)) (.nil)) (.nil)) (.nil))))) (.node (.nil) (.node (.node (.node (.node (.node (.leaf (.trans [] 0)) (.nil)) (.nil)) (.nil)) (.nil)) (.node (.node (.node (.node (.leaf (.trans [(2762402, .ofNat 1), (2846534, .negSucc 0), (4162731, .ofNat 1), (4274763, .ofNat 1)] 0)) (.nil)) (.nil)) (.nil)) (.node (.node (.node (.nil) (.leaf (.atom 1693))) (.nil)) (.nil))))))

def turnQ3_6 : JTree := .node (.node (.node (.node (.node (.node (.node (.node (.leaf (.trans [(3953, .ofNat 1)] 0)) (.nil)) (.nil)) (.nil)) (.nil)) (.nil)) (.node (.node (.node (.node (.node (.leaf (.atom 383)) (.nil)) (.nil)) (.nil)) (.nil)) (.node (.nil) (.node (.node (.node (.leaf (.trans [(3578, .ofNat 1), (5403, .negSucc 0)] 0)) (.nil)) (.nil)) (.nil))))) (.node (.nil) (.node (.node (.node (.node (.node (.leaf (.atom 557)) (.nil)) (.nil)) (.nil)) (.nil)) (.node (.node (.node (.node (.leaf (.trans [(3482, .negSucc 0), (5199, .ofNat 1)] 0)) (.nil)) (.nil)) (.nil)) (.nil))))) (.node (.node (.nil) (.node (.nil) (.node (.nil) (.node (.node (.node (.leaf (.atom 1489)) (.nil)) (.nil)) (.nil))))) (.node (.node (.node (.nil) (.node (.node (.node (.leaf (.atom 1153)) (.nil)) (.nil)) (.nil))) (.node (.node (.node (.node (.leaf (.atom 691)) (.nil)) (.nil)) (.nil)) (.node (.node (.node (.leaf (.atom 1217)) (.nil)) (.nil)) (.nil)))) (.nil)))

def turnQ3_7 : JTree := .node (.node (.node (.node (.node (.node (.node (.node (.leaf (.atom 53)) (.nil)) (.nil)) (.nil)) (.node (.node (.node (.leaf (.atom 967)) (.nil)) (.nil)) (.nil))) (.nil)) (.node (.node (.node (.node (.node (.leaf (.atom 349)) (.nil)) (.nil)) (.nil)) (.nil)) (.node (.nil) (.node (.node (.node (.leaf (.atom 1307)) (.nil)) (.nil)) (.nil))))) (.node (.nil) (.node (.nil) (.node (.node (.node (.node (.leaf (.atom 787)) (.nil)) (.nil)) (.nil)) (.node (.node (.node (.leaf (.trans [(3722, .negSucc 0), (5601, .negSucc 0)] 0)) (.nil)) (.nil)) (.nil)))))) (.node (.node (.node (.node (.nil) (.node (.node (.node (.leaf (.trans [(3334, .negSucc 0)] 0)) (.nil)) (.nil)) (.nil))) (.node (.node (.node (.node (.leaf (.atom 641)) (.nil)) (.nil)) (.nil)) (.nil))) (.node (.nil) (.node (.nil) (.node (.node (.node (.leaf (.atom 1459)) (.nil)) (.nil)) (.nil))))) (.node (.node (.node (.nil) (.node (.node (.node (.leaf (.atom 1103)) (.nil)) (.nil)) (.nil))) (.nil)) (.node (.nil) (.node (.node (.node (.node (.leaf (.atom 911)) (.nil)) (.nil)) (.nil)) (.nil)))))

def turnQ3_8 : JTree := .node (.node (.node (.node (.node (.nil) (.node (.node (.node (.leaf (.trans [(6523461014, .ofNat 1), (12627634467, .negSucc 0), (15449089534858, .ofNat 1), (15919608597886, .negSucc 0), (23280610109799, .ofNat 1), (23907163521927, .ofNat 1)] 0)) (.nil)) (.nil)) (.nil))) (.nil)) (.node (.node (.node (.node (.node (.leaf (.atom 433)) (.nil)) (.nil)) (.nil)) (.node (.node (.node (.leaf (.atom 1181)) (.nil)) (.nil)) (.nil))) (.node (.nil) (.node (.node (.node (.leaf (.atom 1367)) (.nil)) (.nil)) (.nil))))) (.node (.nil) (.node (.nil) (.node (.node (.node (.node (.leaf (.atom 863)) (.nil)) (.nil)) (.nil)) (.nil))))) (.node (.node (.node (.node (.nil) (.node (.node (.node (.leaf (.trans [(3778, .negSucc 0), (5703, .ofNat 1)] 0)) (.nil)) (.nil)) (.nil))) (.nil)) (.node (.node (.node (.node (.node (.leaf (.trans [(2006, .ofNat 1), (298839, .negSucc 0), (355569, .ofNat 1), (3572038, .negSucc 0), (4772762, .negSucc 0)] 0)) (.nil)) (.nil)) (.nil)) (.nil)) (.node (.nil) (.node (.node (.node (.leaf (.atom 1523)) (.nil)) (.nil)) (.nil))))) (.node (.node (.node (.node (.node (.node (.leaf (.trans [(34, .ofNat 1)] 0)) (.nil)) (.nil)) (.nil)) (.nil)) (.node (.node (.node (.node (.leaf (.atom 733)) (.nil)) (.nil)) (.nil)) (.node (.node (.node (.leaf (.atom 1249)) (.nil)) (.nil)) (.nil)))) (.node (.nil) (.node (.node (.node (.node (.leaf (.trans [(3004966, .negSucc 0), (4486737, .ofNat 1)] 0)) (.nil)) (.nil)) (.nil)) (.nil)))))

def turnQ3_9 : JTree := .node (.node (.node (.node (.node (.node (.node (.node (.leaf (.trans [(3, .ofNat 1)] 0)) (.nil)) (.nil)) (.nil)) (.nil)) (.nil)) (.node (.node (.node (.node (.node (.leaf (.atom 293)) (.nil)) (.nil)) (.nil)) (.nil)) (.node (.node (.node (.node (.leaf (.atom 751)) (.nil)) (.nil)) (.nil)) (.node (.node (.node (.leaf (.atom 1289)) (.nil)) (.nil)) (.nil))))) (.node (.node (.node (.nil) (.node (.node (.node (.leaf (.trans [(3826, .negSucc 0), (5721, .ofNat 1)] 0)) (.nil)) (.nil)) (.nil))) (.nil)) (.node (.nil) (.node (.nil) (.node (.node (.node (.leaf (.atom 1549)) (.nil)) (.nil)) (.nil)))))) (.node (.node (.node (.node (.nil) (.node (.node (.node (.leaf (.atom 997)) (.nil)) (.nil)) (.nil))) (.nil)) (.node (.node (.node (.node (.node (.leaf (.atom 461)) (.nil)) (.nil)) (.nil)) (.nil)) (.node (.nil) (.node (.node (.node (.leaf (.atom 1423)) (.nil)) (.nil)) (.nil))))) (.node (.nil) (.node (.node (.node (.node (.node (.leaf (.trans [(8531893, .ofNat 1)] 0)) (.nil)) (.nil)) (.nil)) (.nil)) (.node (.node (.node (.node (.leaf (.trans [] 0)) (.nil)) (.nil)) (.nil)) (.node (.node (.node (.nil) (.leaf (.atom 1667))) (.nil)) (.nil))))))

def turnQ3_10 : JTree := .node (.node (.node (.node (.node (.node (.node (.node (.leaf (.trans [(4189, .ofNat 1)] 0)) (.nil)) (.nil)) (.nil)) (.node (.node (.node (.leaf (.trans [(2970446, .negSucc 0), (4460847, .ofNat 1)] 0)) (.nil)) (.nil)) (.nil))) (.node (.node (.node (.node (.leaf (.atom 617)) (.nil)) (.nil)) (.nil)) (.nil))) (.node (.node (.node (.node (.node (.leaf (.atom 373)) (.nil)) (.nil)) (.nil)) (.nil)) (.node (.nil) (.node (.node (.node (.leaf (.trans [(1613, .ofNat 1), (1619, .ofNat 1), (1621, .ofNat 1), (1627, .ofNat 1), (1637, .ofNat 1)] 0)) (.nil)) (.nil)) (.nil))))) (.node (.node (.node (.nil) (.node (.node (.node (.leaf (.atom 1087)) (.nil)) (.nil)) (.nil))) (.nil)) (.node (.node (.node (.node (.node (.leaf (.atom 541)) (.nil)) (.nil)) (.nil)) (.nil)) (.node (.node (.node (.node (.leaf (.atom 821)) (.nil)) (.nil)) (.nil)) (.nil))))) (.node (.node (.nil) (.node (.nil) (.node (.nil) (.node (.node (.node (.leaf (.trans [(3946, .negSucc 0), (5937, .negSucc 0)] 0)) (.leaf (.atom 1609))) (.nil)) (.nil))))) (.node (.node (.node (.nil) (.node (.node (.node (.leaf (.atom 1129)) (.nil)) (.nil)) (.nil))) (.node (.nil) (.node (.node (.node (.leaf (.atom 1213)) (.nil)) (.nil)) (.nil)))) (.node (.nil) (.node (.node (.node (.node (.leaf (.trans [(1594, .ofNat 1)] 0)) (.nil)) (.nil)) (.nil)) (.nil)))))

def turnQ3_11 : JTree := .node (.node (.node (.node (.node (.node (.node (.node (.leaf (.atom 43)) (.nil)) (.nil)) (.nil)) (.node (.node (.node (.leaf (.trans [(1594, .ofNat 1)] 0)) (.nil)) (.nil)) (.nil))) (.nil)) (.node (.node (.node (.node (.node (.leaf (.atom 337)) (.nil)) (.nil)) (.nil)) (.nil)) (.node (.nil) (.node (.node (.node (.leaf (.trans [(3574, .ofNat 1), (5349, .negSucc 0)] 0)) (.nil)) (.nil)) (.nil))))) (.node (.node (.node (.nil) (.node (.node (.node (.leaf (.atom 1069)) (.nil)) (.nil)) (.nil))) (.nil)) (.node (.nil) (.node (.node (.node (.node (.leaf (.trans [] 0)) (.nil)) (.nil)) (.nil)) (.node (.node (.node (.leaf (.atom 1571)) (.nil)) (.nil)) (.nil)))))) (.node (.node (.node (.node (.node (.node (.node (.leaf (.trans [(493, .ofNat 1)] 0)) (.nil)) (.nil)) (.nil)) (.node (.node (.node (.leaf (.trans [(56678, .ofNat 1), (95133, .negSucc 0)] 0)) (.nil)) (.nil)) (.nil))) (.nil)) (.node (.nil) (.node (.nil) (.node (.node (.node (.leaf (.atom 1451)) (.nil)) (.nil)) (.nil))))) (.node (.nil) (.node (.node (.node (.node (.node (.leaf (.trans [(1462, .ofNat 1), (2829, .ofNat 1), (45182, .ofNat 1)] 0)) (.nil)) (.nil)) (.nil)) (.nil)) (.node (.node (.node (.node (.leaf (.trans [(1198, .negSucc 0), (2319, .ofNat 1)] 0)) (.nil)) (.nil)) (.nil)) (.nil)))))

def turnQ3_12 : JTree := .node (.node (.node (.node (.node (.nil) (.node (.node (.node (.leaf (.trans [(3494, .negSucc 0), (5259, .ofNat 1)] 0)) (.nil)) (.nil)) (.nil))) (.nil)) (.node (.node (.node (.node (.node (.leaf (.atom 421)) (.nil)) (.nil)) (.nil)) (.node (.node (.node (.leaf (.trans [(3986, .ofNat 1), (5961, .ofNat 1)] 0)) (.nil)) (.nil)) (.nil))) (.node (.nil) (.node (.node (.node (.leaf (.atom 1361)) (.nil)) (.nil)) (.nil))))) (.node (.node (.node (.nil) (.node (.node (.node (.leaf (.atom 1091)) (.nil)) (.nil)) (.nil))) (.nil)) (.node (.node (.node (.node (.node (.leaf (.trans [(57, .ofNat 1)] 0)) (.nil)) (.nil)) (.nil)) (.nil)) (.node (.node (.node (.node (.leaf (.atom 857)) (.nil)) (.nil)) (.nil)) (.nil))))) (.node (.node (.node (.node (.node (.node (.node (.leaf (.trans [(14467, .negSucc 0), (15283, .negSucc 0)] 0)) (.nil)) (.nil)) (.nil)) (.node (.node (.node (.leaf (.trans [(1839, .negSucc 0), (98426, .negSucc 0), (115023, .negSucc 0), (1837034, .negSucc 0)] 0)) (.nil)) (.nil)) (.nil))) (.nil)) (.node (.nil) (.node (.nil) (.node (.node (.node (.leaf (.atom 1499)) (.nil)) (.nil)) (.nil))))) (.node (.node (.node (.node (.node (.node (.leaf (.trans [(58, .ofNat 1), (1311, .ofNat 1)] 0)) (.nil)) (.nil)) (.nil)) (.nil)) (.node (.node (.node (.node (.leaf (.atom 719)) (.nil)) (.nil)) (.nil)) (.node (.node (.node (.leaf (.atom 1231)) (.nil)) (.nil)) (.nil)))) (.nil)))

def turnQ3_13 : JTree := .node (.node (.node (.node (.node (.node (.node (.node (.leaf (.atom 29)) (.nil)) (.nil)) (.nil)) (.nil)) (.nil)) (.node (.node (.node (.node (.node (.leaf (.atom 313)) (.nil)) (.nil)) (.nil)) (.nil)) (.node (.nil) (.node (.node (.node (.leaf (.atom 1297)) (.nil)) (.nil)) (.nil))))) (.nil)) (.node (.node (.node (.node (.nil) (.node (.node (.node (.leaf (.atom 1021)) (.nil)) (.nil)) (.nil))) (.nil)) (.node (.node (.node (.node (.node (.leaf (.atom 479)) (.nil)) (.nil)) (.nil)) (.nil)) (.node (.nil) (.node (.node (.node (.leaf (.atom 1433)) (.nil)) (.nil)) (.nil))))) (.node (.node (.nil) (.node (.node (.node (.node (.leaf (.atom 653)) (.nil)) (.nil)) (.nil)) (.nil))) (.node (.nil) (.node (.node (.node (.node (.leaf (.trans [(2845586, .ofNat 1), (2936026, .negSucc 0), (4288083, .ofNat 1), (4409157, .ofNat 1)] 0)) (.nil)) (.nil)) (.nil)) (.nil)))))

def turnQ3_14 : JTree := .node (.node (.node (.node (.node (.nil) (.node (.node (.node (.leaf (.trans [(1371302, .negSucc 0), (1593939, .negSucc 0), (2528165294, .ofNat 1), (2596206062, .ofNat 1), (3774822333, .negSucc 0), (3889788711, .ofNat 1)] 0)) (.nil)) (.nil)) (.nil))) (.nil)) (.node (.node (.node (.node (.node (.leaf (.atom 397)) (.nil)) (.nil)) (.nil)) (.nil)) (.node (.nil) (.node (.node (.node (.leaf (.atom 1319)) (.nil)) (.nil)) (.nil))))) (.node (.nil) (.node (.node (.node (.node (.node (.leaf (.atom 569)) (.nil)) (.nil)) (.nil)) (.nil)) (.node (.node (.node (.node (.leaf (.atom 827)) (.nil)) (.nil)) (.nil)) (.node (.node (.node (.nil) (.leaf (.atom 1619))) (.nil)) (.nil)))))) (.node (.node (.node (.node (.node (.node (.node (.leaf (.trans [(713, .ofNat 1), (1073, .negSucc 0)] 0)) (.nil)) (.nil)) (.nil)) (.nil)) (.node (.node (.node (.node (.leaf (.atom 647)) (.nil)) (.nil)) (.nil)) (.nil))) (.node (.node (.node (.node (.node (.leaf (.trans [(3082, .ofNat 1), (4118, .ofNat 1), (93081, .ofNat 1), (110751, .negSucc 0)] 0)) (.nil)) (.nil)) (.nil)) (.nil)) (.nil))) (.node (.node (.node (.node (.node (.node (.leaf (.trans [(8531893, .ofNat 1)] 0)) (.nil)) (.nil)) (.nil)) (.nil)) (.node (.node (.node (.node (.leaf (.atom 709)) (.nil)) (.nil)) (.nil)) (.node (.node (.node (.leaf (.atom 1223)) (.nil)) (.nil)) (.nil)))) (.node (.nil) (.node (.node (.node (.node (.leaf (.trans [(2991158, .negSucc 0), (4507449, .negSucc 0)] 0)) (.nil)) (.nil)) (.nil)) (.nil)))))

def turnQ3_15 : JTree := .node (.node (.node (.node (.node (.node (.node (.node (.leaf (.atom 71)) (.nil)) (.nil)) (.nil)) (.nil)) (.nil)) (.node (.nil) (.node (.nil) (.node (.node (.node (.leaf (.trans [] 0)) (.nil)) (.nil)) (.nil))))) (.node (.nil) (.node (.nil) (.node (.node (.node (.node (.leaf (.trans [(3442, .negSucc 0), (5169, .ofNat 1)] 0)) (.nil)) (.nil)) (.nil)) (.node (.node (.node (.leaf (.atom 1579)) (.nil)) (.nil)) (.nil)))))) (.node (.node (.node (.node (.nil) (.node (.node (.node (.leaf (.trans [(56746, .ofNat 1), (95019, .negSucc 0)] 0)) (.nil)) (.nil)) (.nil))) (.nil)) (.node (.nil) (.node (.nil) (.node (.node (.node (.leaf (.atom 1481)) (.nil)) (.nil)) (.nil))))) (.node (.node (.node (.nil) (.node (.node (.node (.leaf (.trans [(3866, .ofNat 1), (5793, .ofNat 1)] 0)) (.nil)) (.nil)) (.nil))) (.nil)) (.node (.node (.node (.node (.node (.leaf (.trans [(1978, .negSucc 0), (2091, .negSucc 0), (71079, .ofNat 1)] 0)) (.nil)) (.nil)) (.nil)) (.nil)) (.node (.node (.node (.node (.leaf (.atom 5)) (.nil)) (.nil)) (.nil)) (.nil)))))

def turnQ3_16 : JTree := .node (.node (.node (.node (.node (.nil) (.node (.node (.node (.leaf (.trans [(9425223969, .negSucc 0), (9626150289, .ofNat 1), (11896020336242, .negSucc 0), (17762036108019, .ofNat 1)] 0)) (.nil)) (.nil)) (.nil))) (.nil)) (.node (.nil) (.node (.nil) (.node (.node (.node (.leaf (.atom 1381)) (.nil)) (.nil)) (.nil))))) (.node (.nil) (.node (.node (.node (.node (.node (.leaf (.trans [] 0)) (.nil)) (.nil)) (.nil)) (.nil)) (.node (.node (.node (.node (.leaf (.atom 881)) (.nil)) (.nil)) (.nil)) (.node (.node (.node (.nil) (.leaf (.trans [(3518, .negSucc 0), (5331, .ofNat 1)] 0))) (.nil)) (.nil)))))) (.node (.node (.node (.node (.nil) (.node (.node (.node (.leaf (.trans [(1214, .negSucc 0), (96686, .ofNat 1), (117093, .ofNat 1), (2185437, .ofNat 1)] 0)) (.nil)) (.nil)) (.nil))) (.nil)) (.node (.nil) (.node (.nil) (.node (.node (.node (.leaf (.trans [(3622, .negSucc 0), (5469, .negSucc 0)] 0)) (.nil)) (.nil)) (.nil))))) (.node (.node (.node (.node (.node (.node (.leaf (.atom 281)) (.nil)) (.nil)) (.nil)) (.nil)) (.node (.nil) (.node (.node (.node (.leaf (.atom 1259)) (.nil)) (.nil)) (.nil)))) (.node (.nil) (.node (.node (.node (.node (.leaf (.atom 947)) (.nil)) (.nil)) (.nil)) (.nil)))))

def turnQ3_17 : JTree := .node (.node (.node (.node (.node (.node (.node (.node (.leaf (.trans [(2, .ofNat 1)] 0)) (.nil)) (.nil)) (.nil)) (.node (.node (.node (.leaf (.trans [(2463, .ofNat 1)] 0)) (.nil)) (.nil)) (.nil))) (.nil)) (.node (.nil) (.node (.node (.node (.node (.leaf (.atom 743)) (.nil)) (.nil)) (.nil)) (.node (.node (.node (.leaf (.atom 1283)) (.nil)) (.nil)) (.nil))))) (.node (.node (.node (.nil) (.node (.node (.node (.leaf (.trans [(3802, .negSucc 0), (5667, .negSucc 0)] 0)) (.nil)) (.nil)) (.nil))) (.nil)) (.node (.node (.node (.node (.node (.leaf (.trans [(2074, .negSucc 0), (289041, .negSucc 0), (343911, .ofNat 1), (3454922, .negSucc 0), (4616278, .negSucc 0)] 0)) (.nil)) (.nil)) (.nil)) (.nil)) (.node (.nil) (.node (.node (.node (.leaf (.atom 1543)) (.nil)) (.nil)) (.nil)))))) (.node (.node (.node (.node (.nil) (.node (.node (.node (.leaf (.atom 991)) (.nil)) (.nil)) (.nil))) (.nil)) (.node (.node (.node (.node (.node (.leaf (.atom 457)) (.nil)) (.nil)) (.nil)) (.nil)) (.nil))) (.node (.nil) (.node (.node (.node (.node (.node (.leaf (.atom 599)) (.nil)) (.nil)) (.nil)) (.nil)) (.node (.node (.node (.node (.leaf (.atom 907)) (.nil)) (.nil)) (.nil)) (.node (.node (.node (.nil) (.leaf (.atom 1663))) (.nil)) (.nil))))))

def turnQ3_18 : JTree := .node (.node (.node (.node (.node (.node (.node (.node (.leaf (.atom 59)) (.nil)) (.nil)) (.nil)) (.node (.node (.node (.leaf (.atom 977)) (.nil)) (.nil)) (.nil))) (.node (.node (.node (.node (.leaf (.atom 613)) (.nil)) (.nil)) (.nil)) (.nil))) (.node (.node (.node (.node (.node (.leaf (.atom 367)) (.nil)) (.nil)) (.nil)) (.nil)) (.node (.node (.node (.node (.leaf (.atom 769)) (.nil)) (.nil)) (.nil)) (.node (.node (.node (.leaf (.trans [(3742, .ofNat 1), (5619, .negSucc 0)] 0)) (.nil)) (.nil)) (.nil))))) (.node (.nil) (.node (.node (.node (.node (.node (.leaf (.atom 523)) (.nil)) (.nil)) (.nil)) (.nil)) (.node (.node (.node (.node (.leaf (.atom 811)) (.nil)) (.nil)) (.nil)) (.nil))))) (.node (.node (.node (.nil) (.node (.node (.node (.node (.leaf (.atom 643)) (.nil)) (.nil)) (.nil)) (.nil))) (.node (.nil) (.node (.nil) (.node (.node (.node (.nil) (.leaf (.atom 1607))) (.nil)) (.nil))))) (.node (.node (.node (.nil) (.node (.node (.node (.leaf (.atom 1123)) (.nil)) (.nil)) (.nil))) (.node (.node (.node (.node (.leaf (.atom 683)) (.nil)) (.nil)) (.nil)) (.node (.node (.node (.leaf (.atom 1201)) (.nil)) (.nil)) (.nil)))) (.nil)))

def turnQ3_19 : JTree := .node (.node (.node (.node (.node (.node (.node (.node (.leaf (.atom 41)) (.nil)) (.nil)) (.nil)) (.nil)) (.nil)) (.node (.node (.node (.node (.node (.leaf (.atom 331)) (.nil)) (.nil)) (.nil)) (.nil)) (.nil))) (.node (.nil) (.node (.node (.node (.node (.node (.leaf (.atom 509)) (.nil)) (.nil)) (.nil)) (.nil)) (.node (.node (.node (.node (.leaf (.trans [(2, .ofNat 1)] 0)) (.nil)) (.nil)) (.nil)) (.node (.node (.node (.leaf (.atom 1567)) (.nil)) (.nil)) (.nil)))))) (.node (.node (.node (.node (.node (.node (.node (.leaf (.trans [(551, .ofNat 1)] 0)) (.nil)) (.nil)) (.nil)) (.node (.node (.node (.leaf (.atom 1039)) (.nil)) (.nil)) (.nil))) (.nil)) (.node (.node (.node (.node (.node (.leaf (.atom 499)) (.nil)) (.nil)) (.nil)) (.nil)) (.nil))) (.node (.nil) (.node (.node (.node (.node (.node (.leaf (.trans [(1886, .ofNat 1), (2193, .negSucc 0), (67773, .negSucc 0)] 0)) (.nil)) (.nil)) (.nil)) (.nil)) (.node (.node (.node (.node (.leaf (.trans [(2775154, .ofNat 1), (2849842, .ofNat 1), (4143603, .negSucc 0), (4269801, .ofNat 1)] 0)) (.nil)) (.nil)) (.nil)) (.nil)))))

def turnQ3_20 : JTree := .node (.node (.node (.node (.node (.node (.node (.node (.leaf (.atom 257)) (.nil)) (.nil)) (.nil)) (.nil)) (.nil)) (.node (.node (.node (.node (.node (.leaf (.atom 419)) (.nil)) (.nil)) (.nil)) (.node (.node (.node (.leaf (.trans [(3974, .negSucc 0), (5979, .ofNat 1)] 0)) (.nil)) (.nil)) (.nil))) (.nil))) (.node (.nil) (.node (.node (.node (.node (.node (.leaf (.atom 587)) (.nil)) (.nil)) (.nil)) (.nil)) (.node (.node (.node (.node (.leaf (.atom 853)) (.nil)) (.nil)) (.nil)) (.node (.node (.node (.nil) (.leaf (.atom 1637))) (.nil)) (.nil)))))) (.node (.node (.node (.node (.nil) (.node (.node (.node (.leaf (.trans [(1821, .ofNat 1), (78062, .ofNat 1), (145029, .negSucc 0), (1456958, .ofNat 1)] 0)) (.nil)) (.nil)) (.nil))) (.nil)) (.node (.nil) (.node (.nil) (.node (.node (.node (.leaf (.atom 1493)) (.nil)) (.nil)) (.nil))))) (.node (.node (.node (.node (.node (.node (.leaf (.trans [(51, .ofNat 1)] 0)) (.nil)) (.nil)) (.nil)) (.nil)) (.node (.nil) (.node (.node (.node (.leaf (.atom 1229)) (.nil)) (.nil)) (.nil)))) (.node (.nil) (.node (.node (.node (.node (.leaf (.trans [(2463, .negSucc 0)] 0)) (.nil)) (.nil)) (.nil)) (.nil)))))

def turnQ3_21 : JTree := .node (.node (.node (.node (.node (.node (.node (.node (.leaf (.atom 23)) (.nil)) (.nil)) (.nil)) (.node (.node (.node (.leaf (.atom 953)) (.nil)) (.nil)) (.nil))) (.nil)) (.node (.nil) (.node (.nil) (.node (.node (.node (.leaf (.atom 1291)) (.nil)) (.nil)) (.nil))))) (.nil)) (.node (.node (.node (.node (.nil) (.node (.node (.node (.leaf (.atom 1019)) (.nil)) (.nil)) (.nil))) (.nil)) (.node (.node (.node (.node (.node (.leaf (.atom 467)) (.nil)) (.nil)) (.nil)) (.nil)) (.node (.nil) (.node (.node (.node (.leaf (.atom 1429)) (.nil)) (.nil)) (.nil))))) (.node (.nil) (.node (.nil) (.node (.node (.node (.node (.leaf (.trans [(1546, .ofNat 1), (1797, .ofNat 1)] 0)) (.nil)) (.nil)) (.nil)) (.node (.node (.node (.nil) (.leaf (.atom 1697))) (.nil)) (.nil))))))

def turnQ3_22 : JTree := .node (.node (.node (.node (.node (.nil) (.node (.node (.node (.leaf (.trans [(1062626, .ofNat 1), (2056953, .negSucc 0), (2516548222, .ofNat 1), (2593192474, .negSucc 0), (3792247941, .ofNat 1), (3894309093, .ofNat 1)] 0)) (.nil)) (.nil)) (.nil))) (.nil)) (.node (.node (.node (.node (.node (.leaf (.atom 389)) (.nil)) (.nil)) (.nil)) (.nil)) (.node (.nil) (.node (.node (.node (.leaf (.trans [(3746, .ofNat 1), (5613, .ofNat 1)] 0)) (.nil)) (.nil)) (.nil))))) (.node (.nil) (.node (.node (.node (.node (.node (.leaf (.atom 563)) (.nil)) (.nil)) (.nil)) (.nil)) (.node (.node (.node (.node (.leaf (.trans [(3466, .negSucc 0), (5223, .negSucc 0)] 0)) (.nil)) (.nil)) (.nil)) (.node (.node (.node (.nil) (.leaf (.atom 1613))) (.nil)) (.nil)))))) (.node (.node (.node (.node (.nil) (.node (.node (.node (.leaf (.atom 1051)) (.nil)) (.nil)) (.nil))) (.nil)) (.nil)) (.node (.node (.nil) (.node (.node (.node (.node (.leaf (.atom 701)) (.nil)) (.nil)) (.nil)) (.nil))) (.node (.nil) (.node (.node (.node (.node (.leaf (.atom 941)) (.nil)) (.nil)) (.nil)) (.nil)))))

def turnQ3_23 : JTree := .node (.node (.node (.node (.node (.node (.node (.node (.leaf (.atom 67)) (.nil)) (.nil)) (.nil)) (.nil)) (.node (.node (.node (.node (.leaf (.atom 607)) (.nil)) (.nil)) (.nil)) (.nil))) (.node (.node (.node (.node (.node (.leaf (.atom 353)) (.nil)) (.nil)) (.nil)) (.nil)) (.node (.nil) (.node (.node (.node (.leaf (.trans [(1613, .ofNat 1), (1619, .ofNat 1), (1621, .ofNat 1), (1627, .ofNat 1), (1637, .ofNat 1)] 0)) (.nil)) (.nil)) (.nil))))) (.node (.nil) (.node (.node (.node (.node (.node (.leaf (.atom 521)) (.nil)) (.nil)) (.nil)) (.nil)) (.node (.node (.node (.node (.leaf (.trans [(3446, .ofNat 1), (5163, .ofNat 1)] 0)) (.nil)) (.nil)) (.nil)) (.nil))))) (.node (.node (.node (.node (.nil) (.node (.node (.node (.leaf (.trans [(63422, .negSucc 0), (85017, .negSucc 0)] 0)) (.nil)) (.nil)) (.nil))) (.nil)) (.node (.nil) (.node (.nil) (.node (.node (.node (.leaf (.atom 1471)) (.nil)) (.nil)) (.nil))))) (.node (.node (.node (.nil) (.node (.node (.node (.leaf (.trans [(3862, .ofNat 1), (5799, .negSucc 0)] 0)) (.nil)) (.nil)) (.nil))) (.nil)) (.node (.nil) (.node (.node (.node (.node (.leaf (.atom 919)) (.nil)) (.nil)) (.nil)) (.nil)))))

def turnQ3_24 : JTree := .node (.node (.node (.node (.node (.node (.node (.node (.leaf (.atom 269)) (.nil)) (.nil)) (.nil)) (.node (.node (.node (.leaf (.trans [(3506, .ofNat 1), (5241, .ofNat 1)] 0)) (.nil)) (.nil)) (.nil))) (.nil)) (.node (.node (.node (.node (.node (.leaf (.atom 439)) (.nil)) (.nil)) (.nil)) (.node (.node (.node (.leaf (.atom 1187)) (.nil)) (.nil)) (.nil))) (.node (.nil) (.node (.node (.node (.leaf (.atom 1373)) (.nil)) (.nil)) (.nil))))) (.node (.nil) (.node (.nil) (.node (.node (.node (.node (.leaf (.atom 877)) (.nil)) (.nil)) (.nil)) (.node (.node (.node (.nil) (.leaf (.trans [(3518, .negSucc 0), (5331, .ofNat 1)] 0))) (.nil)) (.nil)))))) (.node (.node (.node (.node (.node (.node (.node (.leaf (.trans [(3920557, .negSucc 0), (4141693, .negSucc 0)] 0)) (.nil)) (.nil)) (.nil)) (.node (.node (.node (.leaf (.trans [(3814, .ofNat 1), (5739, .ofNat 1)] 0)) (.nil)) (.nil)) (.nil))) (.nil)) (.node (.nil) (.node (.nil) (.node (.node (.node (.leaf (.trans [(3646, .negSucc 0), (5433, .ofNat 1)] 0)) (.nil)) (.nil)) (.nil))))) (.node (.node (.node (.node (.node (.node (.leaf (.trans [(87, .ofNat 1), (874, .negSucc 0)] 0)) (.nil)) (.nil)) (.nil)) (.nil)) (.nil)) (.node (.nil) (.node (.node (.node (.node (.leaf (.trans [(2240367, .negSucc 0), (2288127, .ofNat 1), (2827673006, .negSucc 0), (4222019517, .ofNat 1)] 0)) (.nil)) (.nil)) (.nil)) (.nil)))))

def turnQ3_25 : JTree := .node (.node (.node (.node (.node (.node (.node (.node (.leaf (.atom 17)) (.nil)) (.nil)) (.nil)) (.node (.node (.node (.leaf (.trans [(2391, .ofNat 1)] 0)) (.nil)) (.nil)) (.nil))) (.nil)) (.node (.node (.node (.node (.node (.leaf (.atom 307)) (.nil)) (.nil)) (.nil)) (.nil)) (.node (.nil) (.node (.node (.node (.leaf (.trans [(1277627782, .ofNat 1), (1350616629, .ofNat 1), (1465296466, .ofNat 1), (1549006527, .ofNat 1), (45911276601, .negSucc 0), (52655109963, .negSucc 0)] 0)) (.nil)) (.nil)) (.nil))))) (.nil)) (.node (.node (.node (.node (.nil) (.node (.node (.node (.leaf (.atom 1009)) (.nil)) (.nil)) (.nil))) (.nil)) (.nil)) (.node (.nil) (.node (.node (.node (.node (.node (.leaf (.atom 601)) (.nil)) (.nil)) (.nil)) (.nil)) (.node (.node (.node (.node (.leaf (.trans [(2803994, .ofNat 1), (2853418, .negSucc 0), (4225407, .ofNat 1), (4285101, .ofNat 1)] 0)) (.nil)) (.nil)) (.nil)) (.node (.node (.node (.nil) (.leaf (.atom 1669))) (.nil)) (.nil))))))

def turnQ3_26 : JTree := .node (.node (.node (.node (.node (.node (.node (.node (.leaf (.trans [(4087, .ofNat 1)] 0)) (.nil)) (.nil)) (.nil)) (.node (.node (.node (.leaf (.trans [(2973898, .ofNat 1), (4455669, .ofNat 1)] 0)) (.nil)) (.nil)) (.nil))) (.node (.node (.node (.node (.leaf (.atom 619)) (.nil)) (.nil)) (.nil)) (.nil))) (.node (.node (.node (.node (.node (.leaf (.atom 379)) (.nil)) (.nil)) (.nil)) (.nil)) (.node (.nil) (.node (.node (.node (.leaf (.trans [(3662, .ofNat 1), (5541, .ofNat 1)] 0)) (.nil)) (.nil)) (.nil))))) (.node (.nil) (.node (.node (.node (.node (.node (.leaf (.atom 547)) (.nil)) (.nil)) (.nil)) (.nil)) (.node (.node (.node (.node (.leaf (.atom 823)) (.nil)) (.nil)) (.nil)) (.nil))))) (.node (.node (.node (.node (.node (.node (.node (.leaf (.trans [(5149, .ofNat 1)] 0)) (.nil)) (.nil)) (.nil)) (.node (.node (.node (.leaf (.atom 1049)) (.nil)) (.nil)) (.nil))) (.nil)) (.node (.nil) (.node (.nil) (.node (.node (.node (.leaf (.trans [(3958, .ofNat 1), (5919, .negSucc 0)] 0)) (.nil)) (.nil)) (.nil))))) (.node (.node (.node (.nil) (.node (.node (.node (.leaf (.atom 1151)) (.nil)) (.nil)) (.nil))) (.nil)) (.node (.nil) (.node (.node (.node (.node (.leaf (.atom 937)) (.nil)) (.nil)) (.nil)) (.nil)))))

def turnQ3_27 : JTree := .node (.node (.node (.node (.node (.node (.node (.node (.leaf (.atom 47)) (.nil)) (.nil)) (.nil)) (.node (.node (.node (.leaf (.trans [(1493578, .ofNat 1), (1525418, .negSucc 0), (2863732598, .ofNat 1), (4275860361, .negSucc 0)] 0)) (.nil)) (.nil)) (.nil))) (.nil)) (.node (.node (.node (.node (.node (.leaf (.atom 347)) (.nil)) (.nil)) (.nil)) (.nil)) (.node (.nil) (.node (.node (.node (.leaf (.trans [(3566, .ofNat 1), (5361, .ofNat 1)] 0)) (.nil)) (.nil)) (.nil))))) (.node (.nil) (.node (.nil) (.node (.node (.node (.node (.leaf (.atom 773)) (.nil)) (.nil)) (.nil)) (.node (.node (.node (.leaf (.trans [(3734, .negSucc 0), (5583, .ofNat 1)] 0)) (.nil)) (.nil)) (.nil)))))) (.node (.node (.node (.node (.node (.node (.node (.leaf (.atom 271)) (.nil)) (.nil)) (.nil)) (.node (.node (.node (.leaf (.trans [(63346, .ofNat 1), (85119, .ofNat 1)] 0)) (.nil)) (.nil)) (.nil))) (.nil)) (.node (.nil) (.node (.nil) (.node (.node (.node (.leaf (.atom 1453)) (.nil)) (.nil)) (.nil))))) (.node (.node (.node (.nil) (.node (.node (.node (.leaf (.atom 1097)) (.nil)) (.nil)) (.nil))) (.nil)) (.node (.nil) (.node (.node (.node (.node (.leaf (.trans [(2858722, .ofNat 1), (2939438, .ofNat 1), (4268379, .negSucc 0), (4404039, .ofNat 1)] 0)) (.nil)) (.nil)) (.nil)) (.nil)))))

def turnQ3_28 : JTree := .node (.node (.node (.node (.node (.node (.node (.node (.leaf (.atom 263)) (.nil)) (.nil)) (.nil)) (.node (.node (.node (.leaf (.trans [(6283482646, .ofNat 1), (6417433526, .negSucc 0), (11841357405346, .negSucc 0), (17844030504363, .negSucc 0)] 0)) (.nil)) (.nil)) (.nil))) (.nil)) (.node (.node (.node (.node (.node (.leaf (.atom 431)) (.nil)) (.nil)) (.nil)) (.node (.node (.node (.leaf (.atom 1171)) (.nil)) (.nil)) (.nil))) (.nil))) (.node (.nil) (.node (.node (.node (.node (.node (.leaf (.trans [(38, .ofNat 1)] 0)) (.nil)) (.nil)) (.nil)) (.nil)) (.node (.node (.node (.node (.leaf (.atom 859)) (.nil)) (.nil)) (.nil)) (.node (.node (.node (.nil) (.leaf (.atom 1657))) (.nil)) (.nil)))))) (.node (.node (.node (.node (.node (.node (.node (.leaf (.trans [(12121, .ofNat 1), (18241, .negSucc 0)] 0)) (.nil)) (.nil)) (.nil)) (.node (.node (.node (.leaf (.trans [(3754, .negSucc 0), (5637, .negSucc 0)] 0)) (.nil)) (.nil)) (.nil))) (.nil)) (.node (.node (.node (.node (.node (.leaf (.trans [(3009, .negSucc 0), (199226, .negSucc 0), (237046, .ofNat 1), (5358057, .ofNat 1), (7159143, .ofNat 1)] 0)) (.nil)) (.nil)) (.nil)) (.nil)) (.node (.nil) (.node (.node (.node (.leaf (.atom 1511)) (.nil)) (.nil)) (.nil))))) (.node (.node (.node (.node (.node (.node (.leaf (.trans [(69, .ofNat 1), (1102, .ofNat 1)] 0)) (.nil)) (.nil)) (.nil)) (.nil)) (.node (.node (.node (.node (.leaf (.atom 727)) (.nil)) (.nil)) (.nil)) (.node (.node (.node (.leaf (.atom 1237)) (.nil)) (.nil)) (.nil)))) (.node (.nil) (.node (.node (.node (.node (.leaf (.trans [(2391, .negSucc 0)] 0)) (.nil)) (.nil)) (.nil)) (.nil)))))

def turnQ3_29 : JTree := .node (.node (.node (.node (.node (.node (.node (.node (.leaf (.atom 31)) (.nil)) (.nil)) (.nil)) (.node (.node (.node (.leaf (.trans [(2240367, .ofNat 1), (2288127, .negSucc 0), (2850573574, .ofNat 1), (4295598897, .ofNat 1)] 0)) (.nil)) (.nil)) (.nil))) (.nil)) (.node (.node (.node (.node (.node (.leaf (.atom 317)) (.nil)) (.nil)) (.nil)) (.nil)) (.node (.nil) (.node (.node (.node (.leaf (.atom 1301)) (.nil)) (.nil)) (.nil))))) (.node (.nil) (.node (.nil) (.node (.nil) (.node (.node (.node (.leaf (.atom 1553)) (.nil)) (.nil)) (.nil)))))) (.node (.node (.node (.node (.nil) (.node (.node (.node (.leaf (.atom 1031)) (.nil)) (.nil)) (.nil))) (.nil)) (.node (.node (.node (.node (.node (.leaf (.atom 487)) (.nil)) (.nil)) (.nil)) (.nil)) (.node (.nil) (.node (.node (.node (.leaf (.atom 1439)) (.nil)) (.nil)) (.nil))))) (.node (.node (.nil) (.node (.node (.node (.node (.leaf (.atom 659)) (.nil)) (.nil)) (.nil)) (.nil))) (.node (.nil) (.node (.node (.node (.node (.leaf (.trans [] 0)) (.nil)) (.nil)) (.nil)) (.node (.node (.node (.nil) (.leaf (.atom 1699))) (.nil)) (.nil))))))

def turnQ3_30 : JTree := .node (.node (.node (.node (.node (.node (.node (.node (.leaf (.atom 251)) (.nil)) (.nil)) (.nil)) (.nil)) (.nil)) (.node (.node (.node (.node (.node (.leaf (.atom 401)) (.nil)) (.nil)) (.nil)) (.nil)) (.node (.nil) (.node (.node (.node (.leaf (.atom 1321)) (.nil)) (.nil)) (.nil))))) (.node (.nil) (.node (.node (.node (.node (.node (.leaf (.atom 571)) (.nil)) (.nil)) (.nil)) (.nil)) (.node (.node (.node (.node (.leaf (.atom 829)) (.nil)) (.nil)) (.nil)) (.node (.node (.node (.nil) (.leaf (.atom 1621))) (.nil)) (.nil)))))) (.node (.node (.node (.node (.node (.node (.node (.leaf (.trans [(851, .ofNat 1), (899, .ofNat 1)] 0)) (.nil)) (.nil)) (.nil)) (.node (.node (.node (.leaf (.atom 1061)) (.nil)) (.nil)) (.nil))) (.nil)) (.node (.node (.node (.node (.node (.leaf (.trans [(4623, .ofNat 1), (6177, .ofNat 1), (62054, .negSucc 0), (73834, .ofNat 1)] 0)) (.nil)) (.nil)) (.nil)) (.nil)) (.nil))) (.node (.node (.node (.node (.node (.node (.leaf (.atom 277)) (.nil)) (.nil)) (.nil)) (.nil)) (.node (.nil) (.node (.node (.node (.leaf (.trans [(3898, .ofNat 1), (5853, .negSucc 0)] 0)) (.nil)) (.nil)) (.nil)))) (.nil)))

def turnQ3_31 : JTree := .node (.node (.node (.node (.node (.node (.node (.node (.leaf (.atom 61)) (.nil)) (.nil)) (.nil)) (.nil)) (.nil)) (.node (.node (.node (.node (.node (.leaf (.atom 359)) (.nil)) (.nil)) (.nil)) (.nil)) (.node (.node (.node (.node (.leaf (.atom 757)) (.nil)) (.nil)) (.nil)) (.node (.node (.node (.leaf (.trans [(3694, .ofNat 1), (5493, .negSucc 0)] 0)) (.nil)) (.nil)) (.nil))))) (.node (.nil) (.node (.nil) (.node (.node (.node (.node (.leaf (.atom 797)) (.nil)) (.nil)) (.nil)) (.node (.node (.node (.leaf (.atom 1583)) (.nil)) (.nil)) (.nil)))))) (.node (.node (.node (.node (.nil) (.node (.node (.node (.leaf (.trans [(5001, .negSucc 0)] 0)) (.nil)) (.nil)) (.nil))) (.nil)) (.node (.nil) (.node (.nil) (.node (.node (.node (.leaf (.atom 1483)) (.nil)) (.nil)) (.nil))))) (.node (.node (.node (.nil) (.node (.node (.node (.leaf (.atom 1109)) (.nil)) (.nil)) (.nil))) (.node (.node (.node (.node (.leaf (.atom 673)) (.nil)) (.nil)) (.nil)) (.nil))) (.node (.node (.node (.node (.node (.leaf (.trans [(1394, .ofNat 1), (2967, .negSucc 0), (47386, .negSucc 0)] 0)) (.nil)) (.nil)) (.nil)) (.nil)) (.node (.node (.node (.node (.leaf (.trans [(1642, .ofNat 1)] 0)) (.nil)) (.nil)) (.nil)) (.nil)))))

def turnQ3_32 : JTree := .node (.node (.node (.node (.node (.node (.node (.node (.leaf (.trans [(437, .ofNat 1)] 0)) (.nil)) (.nil)) (.nil)) (.node (.node (.node (.leaf (.trans [(8418422978, .negSucc 0), (9785191521, .negSucc 0), (15520406739866, .ofNat 1), (15938109014618, .ofNat 1), (23173634302287, .negSucc 0), (23879412896829, .ofNat 1)] 0)) (.nil)) (.nil)) (.nil))) (.nil)) (.node (.node (.node (.node (.node (.leaf (.atom 443)) (.nil)) (.nil)) (.nil)) (.nil)) (.node (.nil) (.node (.node (.node (.leaf (.atom 1399)) (.nil)) (.nil)) (.nil))))) (.node (.nil) (.node (.nil) (.node (.node (.node (.node (.leaf (.atom 883)) (.nil)) (.nil)) (.nil)) (.node (.node (.node (.nil) (.leaf (.trans [(3554, .negSucc 0), (5277, .negSucc 0)] 0))) (.nil)) (.nil)))))) (.node (.node (.node (.node (.nil) (.node (.node (.node (.leaf (.trans [(1226, .ofNat 1), (76682, .ofNat 1), (147639, .negSucc 0), (2755551, .negSucc 0)] 0)) (.nil)) (.nil)) (.nil))) (.nil)) (.node (.nil) (.node (.nil) (.node (.node (.node (.leaf (.atom 1531)) (.nil)) (.nil)) (.nil))))) (.node (.node (.nil) (.node (.nil) (.node (.node (.node (.leaf (.atom 1277)) (.nil)) (.nil)) (.nil)))) (.nil)))

/-- The cells as polynomials, `2` and `3` being the cosine and the sine of q3. -/
def turnQ3 : JTree := .node (.node (.node (.node (.node (turnQ3_1) (turnQ3_2)) (.node (turnQ3_3) (turnQ3_4))) (.node (.node (turnQ3_5) (turnQ3_6)) (.node (turnQ3_7) (turnQ3_8)))) (.node (.node (.node (turnQ3_9) (turnQ3_10)) (.node (turnQ3_11) (turnQ3_12))) (.node (.node (turnQ3_13) (turnQ3_14)) (.node (turnQ3_15) (turnQ3_16))))) (.node (.node (.node (.node (turnQ3_17) (turnQ3_18)) (.node (turnQ3_19) (turnQ3_20))) (.node (.node (turnQ3_21) (turnQ3_22)) (.node (turnQ3_23) (turnQ3_24)))) (.node (.node (.node (turnQ3_25) (turnQ3_26)) (.node (turnQ3_27) (turnQ3_28))) (.node (.node (turnQ3_29) (turnQ3_30)) (.node (turnQ3_31) (turnQ3_32)))))

/-- The primes of the other cells. -/
def turnQ3Primes : List (ℕ × ℕ) := [(17, 3), (19, 4), (23, 5), (29, 6), (31, 7), (37, 8), (41, 9), (43, 10), (47, 11), (53, 12), (67, 13), (71, 14), (61, 15), (59, 17), (251, 23), (257, 25), (263, 27), (269, 29), (271, 43), (277, 119), (281, 126), (283, 128), (293, 130), (307, 131), (311, 132), (313, 134), (317, 135), (331, 137), (337, 138), (347, 139), (349, 140), (353, 141), (359, 143), (367, 145), (373, 146), (379, 147), (383, 148), (389, 149), (397, 150), (401, 151), (409, 152), (419, 153), (421, 154), (431, 155), (433, 156), (439, 157), (443, 159), (449, 160), (457, 161), (461, 162), (463, 164), (467, 165), (479, 166), (487, 167), (491, 168), (499, 169), (503, 200), (509, 201), (521, 205), (523, 209), (541, 210), (547, 211), (557, 212), (563, 213), (569, 214), (571, 215), (577, 216), (587, 217), (593, 224), (599, 225), (601, 227), (607, 269), (613, 273), (617, 274), (619, 275), (631, 296), (641, 300), (643, 305), (647, 310), (653, 358), (659, 359), (661, 360), (673, 367), (677, 368), (683, 369), (691, 372), (701, 373), (709, 374), (719, 378), (727, 379), (733, 380), (739, 384), (743, 385), (751, 386), (757, 399), (761, 400), (769, 401), (773, 459), (787, 460), (797, 463), (809, 464), (811, 465), (821, 466), (823, 467), (827, 470), (829, 471), (839, 472), (853, 473), (857, 474), (859, 475), (863, 476), (877, 477), (881, 478), (883, 479), (887, 480), (907, 481), (911, 492), (919, 493), (5, 494), (929, 496), (937, 499), (941, 501), (947, 510), (953, 517), (967, 524), (971, 528), (977, 529), (983, 544), (991, 545), (997, 546), (1009, 547), (1013, 548), (1019, 549), (1021, 550), (1031, 551), (1033, 552), (1039, 553), (1049, 563), (1051, 565), (1061, 567), (1063, 568), (1069, 586), (1087, 594), (1091, 602), (1093, 616), (1097, 619), (1103, 620), (1109, 623), (1117, 624), (1123, 625), (1129, 626), (1151, 627), (1153, 628), (1163, 664), (1171, 667), (1181, 668), (1187, 669), (1193, 880), (1201, 881), (1213, 882), (1217, 884), (1223, 886), (1229, 889), (1231, 890), (1237, 891), (1249, 892), (1259, 894), (1277, 895), (1279, 896), (1283, 897), (1289, 898), (1291, 901), (1297, 902), (1301, 903), (1303, 904), (1307, 908), (1319, 918), (1321, 919), (1327, 920), (1361, 922), (1367, 924), (1373, 925), (1381, 926), (1399, 927), (1409, 928), (1423, 930), (1427, 932), (1429, 933), (1433, 934), (1439, 935), (1447, 936), (1451, 938), (1453, 939), (1459, 940), (1471, 941), (1481, 942), (1483, 943), (1487, 944), (1489, 948), (1493, 953), (1499, 954), (1511, 955), (1523, 956), (1531, 959), (1543, 961), (1549, 962), (1553, 967), (1559, 968), (1567, 969), (1571, 970), (1579, 974), (1583, 975), (1597, 976), (1601, 5040), (1607, 5041), (1609, 5042), (1613, 5077), (1619, 5078), (1621, 5079), (1627, 5080), (1637, 5081), (1657, 5083), (1663, 5089), (1667, 5090), (1669, 5091), (1693, 5092), (1697, 5093), (1699, 5095), (1709, 5096)]

/-- Variables for polynomials. -/
def turnQ3Ghosts : List (ℕ × Poly × ℕ) := [(1721, [(12673, .ofNat 1), (179129, .ofNat 1), (183481, .negSucc 0), (5670341, .negSucc 0), (6089101, .negSucc 0)], 0), (1723, [(1, .ofNat 1), (529, .negSucc 0), (236693, .ofNat 1), (254173, .ofNat 1)], 0), (1733, [(529, .negSucc 0), (152881, .ofNat 1), (187493, .negSucc 0), (192253, .negSucc 0), (5941433, .negSucc 0), (6373417, .ofNat 1)], 0), (1741, [(12673, .ofNat 1), (248009, .negSucc 0), (266041, .ofNat 1)], 0), (1747, [(3099921139, .ofNat 1), (3166005059, .negSucc 0), (3194785069, .ofNat 1), (5841867671689, .negSucc 0), (7566002229443, .ofNat 1), (7796433173081, .negSucc 0), (7851904909583, .negSucc 0)], 0), (1753, [(4114060601, .ofNat 1), (4122819463, .ofNat 1), (4201763881, .negSucc 0), (5868835323953, .ofNat 1), (7600928956411, .negSucc 0), (7805493525403, .negSucc 0), (7888151441191, .ofNat 1)], 0), (1759, [(2796947, .ofNat 1), (5048778306061, .ofNat 1), (5156407838141, .negSucc 0), (5248124385763, .ofNat 1), (9514530675195511, .negSucc 0), (12428792530793261, .ofNat 1), (12807325116999287, .negSucc 0)], 0), (1777, [(2806553, .ofNat 1), (6772621285801, .ofNat 1), (9558452340170447, .ofNat 1), (12486167222222197, .negSucc 0), (12822208702260181, .negSucc 0)], 0), (1783, [(825881233, .negSucc 0), (864062621, .ofNat 1), (26462214679, .negSucc 0), (31485660209, .ofNat 1), (1439377511413, .ofNat 1), (1470627690809, .ofNat 1), (1923217583387, .ofNat 1), (1964972365591, .ofNat 1)], 0), (1787, [(1314283457, .ofNat 1), (1756073743, .ofNat 1), (80279499851, .ofNat 1), (82022439943, .ofNat 1), (95519331421, .negSucc 0), (97593141953, .negSucc 0)], 0), (1789, [(8034353, .ofNat 1), (10113419, .ofNat 1), (10150853, .ofNat 1), (237544897, .negSucc 0), (250981051, .negSucc 0), (251910037, .negSucc 0), (264224621, .negSucc 0), (265202627, .negSucc 0), (294180553, .ofNat 1), (312128561, .ofNat 1), (353480123, .ofNat 1), (434329277, .ofNat 1), (500517791, .ofNat 1), (500710877, .ofNat 1), (567591529, .ofNat 1), (934247359, .ofNat 1), (996473003, .negSucc 0), (14764079713, .negSucc 0), (15474089497, .ofNat 1), (17014014379, .negSucc 0), (17540985269, .ofNat 1), (27782785853, .negSucc 0), (33056921563, .ofNat 1), (1659950096659, .negSucc 0), (1663592755607, .negSucc 0), (2217934619741, .negSucc 0), (2222801741593, .negSucc 0)], 0), (1801, [(10476523, .ofNat 1), (10515301, .ofNat 1), (12279769, .negSucc 0), (15763849, .negSucc 0), (17534357, .negSucc 0), (17599259, .negSucc 0), (20713337, .ofNat 1), (23457491, .ofNat 1), (616286449, .ofNat 1), (645923881, .negSucc 0), (710203867, .ofNat 1), (732200837, .negSucc 0), (1379871499, .negSucc 0), (1843708901, .negSucc 0), (13813134767, .ofNat 1), (92581662893, .ofNat 1), (92784827689, .ofNat 1), (110156871403, .negSucc 0), (110398603919, .negSucc 0)], 0), (1811, [(1772899, .ofNat 1), (9594140401179173, .ofNat 1), (9629828462187899, .ofNat 1), (9641724482524141, .ofNat 1), (9677412543532867, .ofNat 1), (9736892645214077, .ofNat 1)], 0), (1823, [(1784791, .negSucc 0), (5067628753999, .ofNat 1), (5086479201937, .ofNat 1), (5092762684583, .ofNat 1), (5111613132521, .ofNat 1), (5143030545751, .ofNat 1), (5175660138719, .negSucc 0), (5194912439297, .negSucc 0), (5201329872823, .negSucc 0), (5220582173401, .negSucc 0), (5252669341031, .negSucc 0), (9550054747411549, .negSucc 0), (9585578819627587, .negSucc 0), (9597420177032933, .negSucc 0), (9632944249248971, .negSucc 0), (9692151036275701, .negSucc 0)], 0), (1831, [(7760143, .ofNat 1), (9892963, .ofNat 1), (9929581, .ofNat 1), (219217991, .ofNat 1), (250057081, .ofNat 1), (250982647, .ofNat 1), (281737871, .ofNat 1), (306440569, .ofNat 1), (344979599, .ofNat 1), (441133391, .ofNat 1), (486438833, .ofNat 1), (507296813, .ofNat 1), (548632313, .ofNat 1), (924395893, .ofNat 1), (979497313, .negSucc 0), (14995370779, .negSucc 0), (15033022813, .ofNat 1), (16955065093, .ofNat 1), (17244452497, .negSucc 0), (27478038659, .negSucc 0), (32694322789, .ofNat 1), (1631671560089, .negSucc 0), (1646050476989, .negSucc 0), (2180150384311, .negSucc 0), (2199362707411, .negSucc 0)], 0), (1847, [(11760383, .ofNat 1), (14547647, .negSucc 0), (16594177, .negSucc 0), (16655599, .negSucc 0), (20335873, .negSucc 0), (22893383, .negSucc 0), (625941067, .negSucc 0), (627512749, .ofNat 1), (707743189, .ofNat 1), (719822881, .negSucc 0), (1364735797, .ofNat 1), (1823485403, .ofNat 1), (91004462503, .negSucc 0), (91806428803, .negSucc 0), (108280263713, .ofNat 1), (109234471013, .ofNat 1)], 0), (1861, [(1783633, .ofNat 1), (1854803, .negSucc 0), (450205543, .negSucc 0), (516335509, .negSucc 0), (15303758867, .ofNat 1), (17551703321, .ofNat 1), (6789458131757, .ofNat 1), (6814713400691, .ofNat 1), (6823131823669, .ofNat 1), (6848387092603, .ofNat 1), (6890479207493, .ofNat 1), (12517208035701929, .negSucc 0), (12563769255921527, .negSucc 0), (12579289662661393, .negSucc 0), (12625850882880991, .negSucc 0), (12703452916580321, .negSucc 0), (12854084920289417, .negSucc 0), (12901899247333271, .negSucc 0), (12917837356347889, .negSucc 0), (12965651683391743, .negSucc 0), (13045342228464833, .negSucc 0)], 0), (1867, [(1795597, .negSucc 0), (1871011, .negSucc 0), (638813891, .ofNat 1), (732648233, .ofNat 1), (5261171307791, .ofNat 1), (5280741690833, .ofNat 1), (5287265151847, .ofNat 1), (5306835534889, .ofNat 1), (5339452839959, .ofNat 1), (12459690709862977, .ofNat 1), (12506037978467551, .ofNat 1), (12521487068002409, .ofNat 1), (12567834336606983, .ofNat 1), (12645079784281273, .ofNat 1), (12839164334195059, .negSucc 0), (12886923159988717, .negSucc 0), (12902842768586603, .negSucc 0), (12950601594380261, .negSucc 0), (13030199637369691, .negSucc 0)], 0), (1871, [(1066921, .ofNat 1), (24967627, .ofNat 1), (25762553, .ofNat 1), (25857911, .ofNat 1), (31948691, .ofNat 1), (33329381, .ofNat 1), (33452747, .ofNat 1), (34585139, .ofNat 1), (35303759, .ofNat 1), (1115407747, .ofNat 1), (1135752029, .ofNat 1), (1156945057, .negSucc 0), (1184741891, .negSucc 0), (1909621069, .ofNat 1), (2551531331, .ofNat 1), (121286709991, .negSucc 0), (124093592041, .negSucc 0), (144311131361, .ofNat 1), (147650856911, .ofNat 1)], 0), (1873, [(1057207, .negSucc 0), (18564017, .ofNat 1), (19317457, .ofNat 1), (19388959, .ofNat 1), (20333021, .negSucc 0), (481433723, .negSucc 0), (502239293, .negSucc 0), (504098291, .negSucc 0), (521162267, .negSucc 0), (531991127, .negSucc 0), (598137499, .ofNat 1), (617181161, .ofNat 1), (619465607, .ofNat 1), (815359661, .ofNat 1), (834949543, .ofNat 1), (864647999, .ofNat 1), (880418593, .ofNat 1), (1249494271, .ofNat 1), (1305430561, .negSucc 0), (26721289939, .ofNat 1), (27208668173, .ofNat 1), (27716379409, .negSucc 0), (28382294867, .negSucc 0), (38448937643, .negSucc 0), (45747878653, .ofNat 1), (2174619462233, .negSucc 0), (2224945671383, .negSucc 0), (2905607704567, .negSucc 0), (2972850835417, .negSucc 0)], 0), (1877, [(1218577, .ofNat 1), (1680311, .ofNat 1), (2017733, .ofNat 1), (37659197, .ofNat 1)], 0), (1879, [(25133, .ofNat 1), (1184203, .ofNat 1), (1363573, .negSucc 0), (1571981, .ofNat 1), (40254407, .negSucc 0)], 0), (1889, [(1161899, .ofNat 1), (1602157, .ofNat 1), (2116159, .negSucc 0), (39496231, .negSucc 0)], 0), (1901, [(26359, .ofNat 1), (1241969, .ofNat 1), (1300151, .ofNat 1), (1648663, .ofNat 1), (38382109, .ofNat 1)], 0), (1907, [(471127, .negSucc 0), (485473, .ofNat 1), (606349, .ofNat 1), (624059, .ofNat 1), (1131899, .ofNat 2), (21125891, .ofNat 1)], 0), (1913, [(1667, .negSucc 0), (17603, .ofNat 1), (439807, .ofNat 1), (470033, .negSucc 0), (471629, .negSucc 0), (488557, .negSucc 0), (881843, .ofNat 1), (14526013, .negSucc 0), (14950283, .negSucc 0), (17056547, .ofNat 1)], 0), (1931, [(17603, .negSucc 0), (493651, .negSucc 0), (508141, .negSucc 0), (610121, .ofNat 1), (633949, .negSucc 0), (881843, .negSucc 0), (17056547, .negSucc 0), (254852627, .ofNat 1)], 0), (1933, [(265259, .ofNat 2), (446777, .ofNat 1), (472957, .ofNat 1), (494177, .ofNat 1), (511369, .negSucc 0), (14616377, .ofNat 1), (15187213, .negSucc 0), (21125891, .negSucc 0)], 0), (1949, [(11611987, .ofNat 1), (14360539, .negSucc 0), (16406141, .negSucc 0), (16466867, .negSucc 0), (20430239, .negSucc 0), (23081419, .negSucc 0), (642855359, .ofNat 1), (645250303, .negSucc 0), (713857601, .ofNat 1), (739060909, .negSucc 0), (1319328691, .ofNat 1), (1762814909, .ofNat 1), (90058142269, .negSucc 0), (90828029917, .negSucc 0), (107154299099, .ofNat 1), (108070338107, .ofNat 1)], 0), (1951, [(7623871, .ofNat 1), (9515087, .ofNat 1), (10444103, .ofNat 1), (10482761, .ofNat 1), (216398467, .ofNat 1), (247223573, .ofNat 1), (248138651, .ofNat 1), (278182819, .ofNat 1), (307862567, .ofNat 1), (347813107, .ofNat 1), (454741619, .ofNat 1), (498332203, .ofNat 1), (520854857, .ofNat 1), (553372117, .ofNat 1), (914544427, .ofNat 1), (969311899, .negSucc 0), (15400578383, .ofNat 1), (15457952911, .negSucc 0), (17101545137, .ofNat 1), (17705328733, .negSucc 0), (26563797077, .negSucc 0), (31606526467, .ofNat 1), (1614704438147, .negSucc 0), (1628508198371, .negSucc 0), (2157479843053, .negSucc 0), (2175923673229, .negSucc 0)], 0), (1973, [(1949, .negSucc 0), (1770383, .ofNat 1), (1863623, .negSucc 0), (2817911, .ofNat 1), (2828393, .ofNat 1), (2831887, .ofNat 1), (2842369, .ofNat 1), (2859839, .ofNat 1)], 0), (1979, [(1951, .ofNat 1), (1758587, .ofNat 1), (1847479, .ofNat 1), (2827589, .negSucc 0), (2838107, .negSucc 0), (2841613, .negSucc 0), (2852131, .negSucc 0), (2869661, .negSucc 0)], 0), (1987, [(4325419133, .ofNat 1), (5431396397, .ofNat 1), (5547182557, .negSucc 0), (10235582649047, .negSucc 0), (10243609537651, .ofNat 1), (10555589965417, .negSucc 0), (10605558982067, .negSucc 0)], 0), (1993, [(5556856949, .ofNat 1), (5581884791, .ofNat 1), (5675317669, .negSucc 0), (10282832886319, .ofNat 1), (10290896829227, .negSucc 0), (10567856775371, .negSucc 0), (10654517130859, .ofNat 1)], 0)]

/-- The polynomial of `q1p` at heading 0. -/
def aheadX : Poly × ℕ := ([(1759, .negSucc 0)], 0)

/-- The polynomial of `q2p` at heading 0. -/
def aheadY : Poly × ℕ := ([(1777, .negSucc 0)], 0)

def turnQ6_1 : JTree := .node (.node (.node (.node (.nil) (.node (.nil) (.node (.node (.node (.leaf (.atom 941)) (.nil)) (.nil)) (.nil)))) (.node (.node (.node (.node (.node (.leaf (.atom 461)) (.nil)) (.nil)) (.nil)) (.nil)) (.node (.node (.node (.node (.leaf (.atom 839)) (.nil)) (.nil)) (.nil)) (.nil)))) (.node (.node (.node (.node (.node (.node (.leaf (.trans [(193521, .negSucc 0), (200974, .ofNat 1)] 0)) (.nil)) (.nil)) (.nil)) (.nil)) (.nil)) (.nil))) (.node (.node (.node (.node (.node (.node (.node (.leaf (.trans [(391, .ofNat 1)] 0)) (.nil)) (.nil)) (.nil)) (.nil)) (.node (.node (.node (.node (.leaf (.trans [(1502, .ofNat 1), (2217, .ofNat 1), (832658, .ofNat 1), (1315473, .negSucc 0)] 0)) (.nil)) (.nil)) (.nil)) (.nil))) (.node (.node (.node (.node (.node (.leaf (.atom 619)) (.nil)) (.nil)) (.nil)) (.nil)) (.nil))) (.nil))

def turnQ6_2 : JTree := .node (.node (.node (.node (.nil) (.node (.nil) (.node (.node (.node (.leaf (.trans [(794786, .ofNat 1), (1255641, .negSucc 0)] 0)) (.nil)) (.nil)) (.nil)))) (.node (.nil) (.node (.node (.node (.node (.leaf (.atom 863)) (.nil)) (.nil)) (.nil)) (.nil)))) (.node (.node (.node (.node (.node (.node (.leaf (.atom 337)) (.nil)) (.nil)) (.nil)) (.nil)) (.node (.nil) (.node (.node (.node (.leaf (.atom 1307)) (.nil)) (.nil)) (.nil)))) (.nil))) (.node (.node (.node (.node (.node (.node (.node (.leaf (.trans [] 0)) (.nil)) (.nil)) (.nil)) (.node (.node (.node (.leaf (.trans [(91582, .negSucc 0), (91814, .negSucc 0), (108951, .negSucc 0), (109227, .negSucc 0)] 0)) (.nil)) (.nil)) (.nil))) (.node (.nil) (.node (.node (.node (.leaf (.atom 1151)) (.nil)) (.nil)) (.nil)))) (.nil)) (.node (.node (.node (.node (.node (.node (.leaf (.atom 409)) (.nil)) (.nil)) (.nil)) (.nil)) (.node (.node (.node (.node (.leaf (.atom 787)) (.nil)) (.nil)) (.nil)) (.nil))) (.nil)))

def turnQ6_3 : JTree := .node (.node (.node (.node (.node (.node (.node (.node (.leaf (.trans [(3, .ofNat 1)] 0)) (.nil)) (.nil)) (.nil)) (.nil)) (.node (.nil) (.node (.node (.node (.leaf (.atom 997)) (.nil)) (.nil)) (.nil)))) (.nil)) (.node (.node (.nil) (.node (.nil) (.node (.node (.node (.leaf (.atom 1283)) (.nil)) (.nil)) (.nil)))) (.nil))) (.node (.node (.node (.nil) (.node (.nil) (.node (.node (.node (.leaf (.atom 1093)) (.nil)) (.nil)) (.nil)))) (.node (.node (.node (.node (.node (.leaf (.atom 659)) (.nil)) (.nil)) (.nil)) (.nil)) (.nil))) (.node (.node (.nil) (.node (.nil) (.node (.node (.node (.leaf (.atom 1459)) (.nil)) (.nil)) (.nil)))) (.nil)))

def turnQ6_4 : JTree := .node (.node (.node (.node (.nil) (.node (.nil) (.node (.node (.node (.leaf (.atom 1051)) (.nil)) (.nil)) (.nil)))) (.node (.node (.node (.node (.node (.leaf (.atom 587)) (.nil)) (.nil)) (.nil)) (.nil)) (.nil))) (.node (.node (.nil) (.node (.nil) (.node (.node (.node (.leaf (.atom 1361)) (.nil)) (.nil)) (.nil)))) (.node (.node (.node (.node (.node (.leaf (.atom 727)) (.nil)) (.nil)) (.nil)) (.nil)) (.node (.nil) (.node (.node (.node (.nil) (.leaf (.atom 1549))) (.nil)) (.nil)))))) (.node (.nil) (.node (.nil) (.node (.node (.nil) (.node (.node (.node (.leaf (.atom 881)) (.nil)) (.nil)) (.nil))) (.nil))))

def turnQ6_5 : JTree := .node (.node (.node (.node (.node (.node (.node (.node (.leaf (.atom 19)) (.nil)) (.nil)) (.nil)) (.nil)) (.node (.nil) (.node (.node (.node (.leaf (.atom 971)) (.nil)) (.nil)) (.nil)))) (.node (.node (.node (.node (.node (.leaf (.atom 479)) (.nil)) (.nil)) (.nil)) (.nil)) (.nil))) (.nil)) (.node (.node (.node (.nil) (.node (.nil) (.node (.node (.node (.leaf (.atom 1069)) (.nil)) (.nil)) (.nil)))) (.node (.node (.node (.node (.node (.leaf (.atom 641)) (.nil)) (.nil)) (.nil)) (.nil)) (.nil))) (.node (.node (.nil) (.node (.nil) (.node (.node (.node (.leaf (.atom 1439)) (.nil)) (.nil)) (.nil)))) (.nil)))

def turnQ6_6 : JTree := .node (.node (.node (.node (.nil) (.node (.nil) (.node (.node (.node (.leaf (.atom 1033)) (.nil)) (.nil)) (.nil)))) (.node (.node (.node (.node (.node (.leaf (.atom 569)) (.nil)) (.nil)) (.nil)) (.nil)) (.nil))) (.node (.nil) (.node (.node (.node (.node (.node (.leaf (.atom 691)) (.nil)) (.nil)) (.nil)) (.nil)) (.nil)))) (.node (.node (.node (.node (.node (.node (.node (.leaf (.atom 293)) (.nil)) (.nil)) (.nil)) (.nil)) (.node (.nil) (.node (.node (.node (.leaf (.atom 1171)) (.nil)) (.nil)) (.nil)))) (.nil)) (.node (.node (.node (.node (.node (.node (.leaf (.atom 433)) (.nil)) (.nil)) (.nil)) (.nil)) (.node (.node (.node (.node (.leaf (.atom 809)) (.nil)) (.nil)) (.nil)) (.nil))) (.nil)))

def turnQ6_7 : JTree := .node (.node (.node (.node (.node (.node (.node (.node (.leaf (.atom 53)) (.nil)) (.nil)) (.nil)) (.nil)) (.node (.node (.node (.node (.leaf (.trans [(686527, .negSucc 0), (778447, .negSucc 0)] 0)) (.nil)) (.nil)) (.nil)) (.node (.node (.node (.leaf (.atom 1021)) (.nil)) (.nil)) (.nil)))) (.node (.node (.node (.node (.node (.leaf (.atom 521)) (.nil)) (.nil)) (.nil)) (.nil)) (.nil))) (.node (.node (.node (.node (.node (.node (.leaf (.atom 313)) (.nil)) (.nil)) (.nil)) (.nil)) (.node (.nil) (.node (.node (.node (.leaf (.atom 1297)) (.nil)) (.nil)) (.nil)))) (.nil))) (.node (.node (.node (.nil) (.node (.nil) (.node (.node (.node (.leaf (.atom 1109)) (.nil)) (.nil)) (.nil)))) (.nil)) (.node (.node (.nil) (.node (.nil) (.node (.node (.node (.leaf (.atom 1487)) (.nil)) (.nil)) (.nil)))) (.nil)))

def turnQ6_8 : JTree := .node (.node (.node (.node (.nil) (.node (.node (.node (.node (.leaf (.trans [(1478, .ofNat 1), (2253, .negSucc 0), (876982, .negSucc 0), (1248987, .negSucc 0)] 0)) (.nil)) (.nil)) (.nil)) (.node (.node (.node (.leaf (.trans [(3565419062, .ofNat 1), (5262672477, .ofNat 1), (1356365243661, .negSucc 0), (1976547739898, .ofNat 1), (3122644813413, .negSucc 0), (483560943346394, .negSucc 0), (835514905011086, .negSucc 0), (947383090921646, .negSucc 0), (1129914315827331, .negSucc 0)] 0)) (.nil)) (.nil)) (.nil)))) (.node (.node (.node (.node (.node (.leaf (.atom 607)) (.nil)) (.nil)) (.nil)) (.nil)) (.nil))) (.node (.node (.node (.node (.node (.node (.leaf (.atom 367)) (.nil)) (.nil)) (.nil)) (.nil)) (.node (.nil) (.node (.node (.node (.leaf (.atom 1381)) (.nil)) (.nil)) (.nil)))) (.nil))) (.node (.node (.node (.node (.node (.node (.node (.leaf (.trans [(526, .ofNat 1), (831, .negSucc 0)] 0)) (.nil)) (.nil)) (.nil)) (.nil)) (.node (.nil) (.node (.node (.node (.leaf (.atom 1223)) (.nil)) (.nil)) (.nil)))) (.nil)) (.node (.node (.nil) (.node (.node (.node (.node (.leaf (.atom 829)) (.nil)) (.nil)) (.nil)) (.nil))) (.node (.node (.nil) (.node (.node (.node (.leaf (.atom 911)) (.nil)) (.nil)) (.nil))) (.nil))))

def turnQ6_9 : JTree := .node (.node (.node (.node (.node (.node (.node (.node (.leaf (.atom 13)) (.nil)) (.nil)) (.nil)) (.nil)) (.node (.nil) (.node (.node (.node (.leaf (.atom 953)) (.nil)) (.nil)) (.nil)))) (.node (.node (.node (.node (.node (.leaf (.atom 463)) (.nil)) (.nil)) (.nil)) (.nil)) (.node (.node (.node (.node (.leaf (.atom 857)) (.nil)) (.nil)) (.nil)) (.nil)))) (.node (.node (.nil) (.node (.nil) (.node (.node (.node (.leaf (.atom 1237)) (.nil)) (.nil)) (.nil)))) (.node (.nil) (.node (.nil) (.node (.node (.node (.nil) (.leaf (.atom 1511))) (.nil)) (.nil)))))) (.node (.node (.node (.nil) (.node (.node (.node (.node (.leaf (.trans [] 0)) (.nil)) (.nil)) (.nil)) (.nil))) (.node (.node (.node (.node (.node (.leaf (.atom 631)) (.nil)) (.nil)) (.nil)) (.nil)) (.nil))) (.node (.node (.nil) (.node (.nil) (.node (.node (.node (.leaf (.atom 1429)) (.nil)) (.nil)) (.nil)))) (.node (.nil) (.node (.nil) (.node (.node (.node (.nil) (.leaf (.atom 1567))) (.nil)) (.nil))))))

def turnQ6_10 : JTree := .node (.node (.node (.node (.nil) (.node (.nil) (.node (.node (.node (.leaf (.trans [] 0)) (.nil)) (.nil)) (.nil)))) (.node (.node (.node (.node (.node (.leaf (.atom 557)) (.nil)) (.nil)) (.nil)) (.nil)) (.nil))) (.node (.node (.node (.node (.node (.node (.leaf (.atom 349)) (.nil)) (.nil)) (.nil)) (.nil)) (.node (.nil) (.node (.node (.node (.leaf (.atom 1321)) (.nil)) (.nil)) (.nil)))) (.node (.node (.node (.node (.node (.leaf (.atom 677)) (.nil)) (.nil)) (.nil)) (.nil)) (.nil)))) (.node (.node (.node (.node (.node (.node (.node (.leaf (.atom 281)) (.nil)) (.nil)) (.nil)) (.nil)) (.node (.nil) (.node (.node (.node (.leaf (.atom 1163)) (.nil)) (.nil)) (.nil)))) (.nil)) (.node (.node (.node (.node (.node (.node (.leaf (.atom 421)) (.nil)) (.nil)) (.nil)) (.nil)) (.nil)) (.nil)))

def turnQ6_11 : JTree := .node (.node (.node (.node (.node (.node (.node (.node (.leaf (.atom 43)) (.nil)) (.nil)) (.nil)) (.nil)) (.node (.nil) (.node (.node (.node (.leaf (.atom 1013)) (.nil)) (.nil)) (.nil)))) (.node (.node (.node (.node (.node (.leaf (.atom 503)) (.nil)) (.nil)) (.nil)) (.nil)) (.nil))) (.node (.node (.node (.node (.node (.node (.leaf (.atom 311)) (.nil)) (.nil)) (.nil)) (.nil)) (.node (.nil) (.node (.node (.node (.leaf (.atom 1289)) (.nil)) (.nil)) (.nil)))) (.nil))) (.node (.node (.node (.node (.node (.node (.node (.leaf (.atom 251)) (.nil)) (.nil)) (.nil)) (.nil)) (.nil)) (.nil)) (.node (.node (.nil) (.node (.nil) (.node (.node (.node (.leaf (.atom 1481)) (.nil)) (.nil)) (.nil)))) (.nil)))

def turnQ6_12 : JTree := .node (.node (.node (.node (.nil) (.node (.node (.node (.node (.leaf (.atom 757)) (.nil)) (.nil)) (.nil)) (.node (.node (.node (.leaf (.trans [(292410231, .negSucc 0), (303671714, .ofNat 1)] 0)) (.nil)) (.nil)) (.nil)))) (.node (.node (.node (.node (.node (.leaf (.atom 599)) (.nil)) (.nil)) (.nil)) (.nil)) (.nil))) (.node (.node (.node (.node (.node (.node (.leaf (.atom 353)) (.nil)) (.nil)) (.nil)) (.nil)) (.node (.nil) (.node (.node (.node (.leaf (.atom 1373)) (.nil)) (.nil)) (.nil)))) (.nil))) (.node (.node (.node (.node (.node (.node (.node (.leaf (.trans [(502, .negSucc 0), (1173, .negSucc 0)] 0)) (.nil)) (.nil)) (.nil)) (.nil)) (.node (.nil) (.node (.node (.node (.leaf (.atom 1213)) (.nil)) (.nil)) (.nil)))) (.nil)) (.node (.node (.nil) (.node (.node (.node (.node (.leaf (.atom 823)) (.nil)) (.nil)) (.nil)) (.nil))) (.node (.node (.nil) (.node (.node (.node (.leaf (.atom 887)) (.nil)) (.nil)) (.nil))) (.nil))))

def turnQ6_13 : JTree := .node (.node (.node (.node (.node (.node (.node (.node (.leaf (.atom 29)) (.nil)) (.nil)) (.nil)) (.nil)) (.node (.nil) (.node (.node (.node (.leaf (.atom 983)) (.nil)) (.nil)) (.nil)))) (.node (.node (.node (.node (.node (.leaf (.atom 487)) (.nil)) (.nil)) (.nil)) (.nil)) (.nil))) (.node (.node (.nil) (.node (.nil) (.node (.node (.node (.leaf (.atom 1277)) (.nil)) (.nil)) (.nil)))) (.nil))) (.node (.node (.node (.nil) (.node (.nil) (.node (.node (.node (.leaf (.atom 1087)) (.nil)) (.nil)) (.nil)))) (.node (.node (.node (.node (.node (.leaf (.atom 647)) (.nil)) (.nil)) (.nil)) (.nil)) (.nil))) (.node (.node (.nil) (.node (.node (.node (.node (.leaf (.atom 761)) (.nil)) (.nil)) (.nil)) (.node (.node (.node (.leaf (.atom 1451)) (.nil)) (.nil)) (.nil)))) (.node (.nil) (.node (.nil) (.node (.node (.node (.nil) (.leaf (.atom 1583))) (.nil)) (.nil))))))

def turnQ6_14 : JTree := .node (.node (.node (.node (.nil) (.node (.node (.node (.node (.leaf (.trans [] 0)) (.nil)) (.nil)) (.nil)) (.node (.node (.node (.leaf (.atom 1049)) (.nil)) (.nil)) (.nil)))) (.nil)) (.node (.nil) (.node (.node (.node (.node (.node (.leaf (.atom 709)) (.nil)) (.nil)) (.nil)) (.nil)) (.node (.nil) (.node (.node (.node (.nil) (.leaf (.atom 1531))) (.nil)) (.nil)))))) (.node (.node (.node (.node (.node (.node (.node (.leaf (.trans [(46, .ofNat 1), (87, .negSucc 0)] 0)) (.nil)) (.nil)) (.nil)) (.nil)) (.node (.nil) (.node (.node (.node (.leaf (.atom 1187)) (.nil)) (.nil)) (.nil)))) (.nil)) (.node (.node (.node (.node (.node (.node (.leaf (.atom 443)) (.nil)) (.nil)) (.nil)) (.nil)) (.node (.node (.node (.node (.leaf (.atom 821)) (.nil)) (.nil)) (.nil)) (.nil))) (.nil)))

def turnQ6_15 : JTree := .node (.node (.node (.node (.node (.node (.node (.node (.leaf (.atom 71)) (.nil)) (.nil)) (.nil)) (.nil)) (.node (.node (.node (.node (.leaf (.atom 739)) (.nil)) (.nil)) (.nil)) (.node (.node (.node (.leaf (.atom 1031)) (.nil)) (.nil)) (.nil)))) (.nil)) (.node (.node (.node (.node (.node (.node (.leaf (.atom 331)) (.nil)) (.nil)) (.nil)) (.nil)) (.node (.nil) (.node (.node (.node (.leaf (.atom 1301)) (.nil)) (.nil)) (.nil)))) (.nil))) (.node (.node (.node (.node (.node (.node (.node (.leaf (.atom 269)) (.nil)) (.nil)) (.nil)) (.nil)) (.node (.nil) (.node (.node (.node (.leaf (.atom 1123)) (.nil)) (.nil)) (.nil)))) (.nil)) (.node (.node (.node (.node (.node (.node (.leaf (.atom 397)) (.nil)) (.nil)) (.nil)) (.nil)) (.node (.nil) (.node (.node (.node (.leaf (.atom 1493)) (.nil)) (.nil)) (.nil)))) (.node (.nil) (.node (.node (.node (.node (.leaf (.atom 5)) (.nil)) (.nil)) (.nil)) (.nil)))))

def turnQ6_16 : JTree := .node (.node (.node (.node (.nil) (.node (.node (.node (.node (.leaf (.trans [] 0)) (.nil)) (.nil)) (.nil)) (.node (.node (.node (.leaf (.atom 1061)) (.nil)) (.nil)) (.nil)))) (.nil)) (.node (.node (.node (.node (.node (.node (.leaf (.atom 373)) (.nil)) (.nil)) (.nil)) (.nil)) (.node (.nil) (.node (.node (.node (.leaf (.atom 1409)) (.nil)) (.nil)) (.nil)))) (.nil))) (.node (.node (.node (.node (.node (.node (.node (.leaf (.trans [] 0)) (.nil)) (.nil)) (.nil)) (.nil)) (.nil)) (.nil)) (.node (.node (.node (.node (.node (.node (.leaf (.atom 457)) (.nil)) (.nil)) (.nil)) (.nil)) (.nil)) (.node (.node (.nil) (.node (.node (.node (.leaf (.atom 929)) (.nil)) (.nil)) (.nil))) (.nil))))

def turnQ6_17 : JTree := .node (.node (.node (.node (.node (.node (.node (.node (.leaf (.atom 11)) (.nil)) (.nil)) (.nil)) (.nil)) (.node (.nil) (.node (.node (.node (.leaf (.atom 947)) (.nil)) (.nil)) (.nil)))) (.node (.nil) (.node (.node (.node (.node (.leaf (.atom 853)) (.nil)) (.nil)) (.nil)) (.nil)))) (.node (.node (.node (.node (.node (.node (.leaf (.trans [] 0)) (.nil)) (.nil)) (.nil)) (.nil)) (.node (.nil) (.node (.node (.node (.leaf (.atom 1231)) (.nil)) (.nil)) (.nil)))) (.nil))) (.node (.node (.node (.nil) (.node (.node (.node (.node (.leaf (.trans [(2229, .negSucc 0), (794666, .negSucc 0), (1373054, .negSucc 0), (1556894, .negSucc 0), (1856859, .negSucc 0)] 0)) (.nil)) (.nil)) (.nil)) (.nil))) (.nil)) (.node (.node (.node (.node (.node (.node (.leaf (.atom 383)) (.nil)) (.nil)) (.nil)) (.nil)) (.node (.nil) (.node (.node (.node (.leaf (.atom 1427)) (.nil)) (.nil)) (.nil)))) (.nil)))

def turnQ6_18 : JTree := .node (.node (.node (.node (.node (.node (.node (.node (.leaf (.atom 59)) (.nil)) (.nil)) (.nil)) (.nil)) (.node (.nil) (.node (.node (.node (.leaf (.trans [(194940154, .negSucc 0), (455507571, .negSucc 0)] 0)) (.nil)) (.nil)) (.nil)))) (.node (.node (.node (.node (.node (.leaf (.atom 547)) (.nil)) (.nil)) (.nil)) (.nil)) (.node (.node (.node (.node (.leaf (.atom 877)) (.nil)) (.nil)) (.nil)) (.nil)))) (.node (.node (.node (.node (.node (.node (.leaf (.atom 347)) (.nil)) (.nil)) (.nil)) (.nil)) (.node (.nil) (.node (.node (.node (.leaf (.atom 1319)) (.nil)) (.nil)) (.nil)))) (.node (.node (.node (.node (.node (.leaf (.atom 673)) (.nil)) (.nil)) (.nil)) (.nil)) (.nil)))) (.node (.node (.node (.node (.node (.node (.node (.leaf (.atom 277)) (.nil)) (.nil)) (.nil)) (.node (.node (.node (.leaf (.trans [(72634, .ofNat 1), (72818, .ofNat 1), (137373, .negSucc 0), (137721, .negSucc 0)] 0)) (.nil)) (.nil)) (.nil))) (.node (.nil) (.node (.node (.node (.leaf (.atom 1153)) (.nil)) (.nil)) (.nil)))) (.nil)) (.node (.node (.node (.node (.node (.node (.leaf (.atom 419)) (.nil)) (.nil)) (.nil)) (.nil)) (.node (.node (.node (.node (.leaf (.atom 797)) (.nil)) (.nil)) (.nil)) (.nil))) (.nil)))

def turnQ6_19 : JTree := .node (.node (.node (.node (.node (.node (.node (.node (.leaf (.atom 41)) (.nil)) (.nil)) (.nil)) (.nil)) (.node (.nil) (.node (.node (.node (.leaf (.atom 1009)) (.nil)) (.nil)) (.nil)))) (.node (.node (.node (.node (.node (.leaf (.atom 499)) (.nil)) (.nil)) (.nil)) (.nil)) (.nil))) (.node (.node (.node (.node (.node (.node (.leaf (.atom 307)) (.nil)) (.nil)) (.nil)) (.nil)) (.nil)) (.nil))) (.node (.node (.node (.nil) (.node (.nil) (.node (.node (.node (.leaf (.atom 1097)) (.nil)) (.nil)) (.nil)))) (.node (.node (.node (.node (.node (.leaf (.atom 661)) (.nil)) (.nil)) (.nil)) (.nil)) (.nil))) (.node (.node (.nil) (.node (.nil) (.node (.node (.node (.leaf (.atom 1471)) (.nil)) (.nil)) (.nil)))) (.nil)))

def turnQ6_20 : JTree := .node (.node (.node (.node (.nil) (.node (.node (.node (.node (.leaf (.trans [(826346, .ofNat 1), (1305501, .negSucc 0), (202164938, .negSucc 0), (472389387, .negSucc 0)] 0)) (.nil)) (.nil)) (.nil)) (.node (.node (.node (.leaf (.trans [(837094, .ofNat 1), (1192179, .ofNat 1)] 0)) (.nil)) (.nil)) (.nil)))) (.node (.node (.node (.node (.node (.leaf (.atom 593)) (.nil)) (.nil)) (.nil)) (.nil)) (.nil))) (.node (.node (.nil) (.node (.nil) (.node (.node (.node (.leaf (.atom 1367)) (.nil)) (.nil)) (.nil)))) (.node (.node (.node (.node (.node (.leaf (.atom 733)) (.nil)) (.nil)) (.nil)) (.nil)) (.node (.nil) (.node (.node (.node (.nil) (.leaf (.atom 1553))) (.nil)) (.nil)))))) (.node (.node (.node (.nil) (.node (.nil) (.node (.node (.node (.leaf (.atom 1201)) (.nil)) (.nil)) (.nil)))) (.nil)) (.node (.nil) (.node (.node (.nil) (.node (.node (.node (.leaf (.atom 883)) (.nil)) (.nil)) (.nil))) (.nil))))

def turnQ6_21 : JTree := .node (.node (.node (.node (.node (.node (.node (.node (.leaf (.atom 23)) (.nil)) (.nil)) (.nil)) (.nil)) (.node (.nil) (.node (.node (.node (.leaf (.atom 977)) (.nil)) (.nil)) (.nil)))) (.nil)) (.node (.node (.nil) (.node (.nil) (.node (.node (.node (.leaf (.atom 1259)) (.nil)) (.nil)) (.nil)))) (.nil))) (.node (.node (.nil) (.node (.node (.node (.node (.node (.leaf (.atom 643)) (.nil)) (.nil)) (.nil)) (.nil)) (.nil))) (.node (.node (.nil) (.node (.nil) (.node (.node (.node (.leaf (.atom 1447)) (.nil)) (.nil)) (.nil)))) (.node (.nil) (.node (.nil) (.node (.node (.node (.nil) (.leaf (.atom 1579))) (.nil)) (.nil))))))

def turnQ6_22 : JTree := .node (.node (.node (.node (.nil) (.node (.nil) (.node (.node (.node (.leaf (.atom 1039)) (.nil)) (.nil)) (.nil)))) (.node (.node (.node (.node (.node (.leaf (.atom 571)) (.nil)) (.nil)) (.nil)) (.nil)) (.nil))) (.node (.nil) (.node (.node (.node (.node (.node (.leaf (.atom 701)) (.nil)) (.nil)) (.nil)) (.nil)) (.node (.nil) (.node (.node (.node (.nil) (.leaf (.atom 1523))) (.nil)) (.nil)))))) (.node (.node (.node (.nil) (.node (.nil) (.node (.node (.node (.leaf (.atom 1181)) (.nil)) (.nil)) (.nil)))) (.nil)) (.node (.node (.node (.node (.node (.node (.leaf (.atom 439)) (.nil)) (.nil)) (.nil)) (.nil)) (.node (.node (.node (.node (.leaf (.atom 811)) (.nil)) (.nil)) (.nil)) (.nil))) (.nil)))

def turnQ6_23 : JTree := .node (.node (.node (.node (.node (.node (.node (.node (.leaf (.atom 67)) (.nil)) (.nil)) (.nil)) (.nil)) (.node (.node (.node (.node (.leaf (.trans [(614261, .ofNat 1), (870029, .negSucc 0)] 0)) (.nil)) (.nil)) (.nil)) (.node (.node (.node (.leaf (.trans [(1248608806, .ofNat 1), (1972612011, .negSucc 0), (305471221318, .negSucc 0), (713780363757, .negSucc 0)] 0)) (.nil)) (.nil)) (.nil)))) (.node (.node (.node (.node (.node (.leaf (.atom 523)) (.nil)) (.nil)) (.nil)) (.nil)) (.nil))) (.node (.node (.node (.node (.node (.node (.leaf (.atom 317)) (.nil)) (.nil)) (.nil)) (.nil)) (.nil)) (.nil))) (.node (.node (.node (.node (.node (.node (.node (.leaf (.atom 263)) (.nil)) (.nil)) (.nil)) (.nil)) (.node (.nil) (.node (.node (.node (.leaf (.atom 1117)) (.nil)) (.nil)) (.nil)))) (.nil)) (.node (.node (.node (.node (.node (.node (.leaf (.atom 389)) (.nil)) (.nil)) (.nil)) (.nil)) (.node (.nil) (.node (.node (.node (.leaf (.atom 1489)) (.nil)) (.nil)) (.nil)))) (.nil)))

def turnQ6_24 : JTree := .node (.node (.node (.node (.nil) (.node (.node (.node (.node (.leaf (.trans [(1486, .negSucc 0), (1191999, .ofNat 1), (1237906, .negSucc 0), (2059581, .ofNat 1), (2335341, .ofNat 1)] 0)) (.nil)) (.nil)) (.nil)) (.node (.node (.node (.leaf (.trans [(851962726, .ofNat 1), (1345971531, .negSucc 0), (208432051078, .negSucc 0), (487033457997, .negSucc 0), (945196866142, .negSucc 0), (1493267292327, .ofNat 1), (231241714537726, .ofNat 1), (540331735364049, .ofNat 1)] 0)) (.nil)) (.nil)) (.nil)))) (.node (.node (.node (.node (.node (.leaf (.atom 613)) (.nil)) (.nil)) (.nil)) (.nil)) (.nil))) (.node (.node (.nil) (.node (.nil) (.node (.node (.node (.leaf (.atom 1399)) (.nil)) (.nil)) (.nil)))) (.nil))) (.node (.node (.node (.node (.node (.node (.node (.leaf (.trans [(129014, .negSucc 0), (301461, .negSucc 0)] 0)) (.nil)) (.nil)) (.nil)) (.nil)) (.node (.nil) (.node (.node (.node (.leaf (.atom 1229)) (.nil)) (.nil)) (.nil)))) (.nil)) (.node (.nil) (.node (.node (.nil) (.node (.node (.node (.leaf (.atom 919)) (.nil)) (.nil)) (.nil))) (.nil))))

def turnQ6_25 : JTree := .node (.node (.node (.node (.node (.node (.node (.node (.leaf (.atom 17)) (.nil)) (.nil)) (.nil)) (.nil)) (.node (.nil) (.node (.node (.node (.leaf (.atom 967)) (.nil)) (.nil)) (.nil)))) (.node (.node (.node (.node (.node (.leaf (.atom 467)) (.nil)) (.nil)) (.nil)) (.nil)) (.nil))) (.node (.node (.nil) (.node (.nil) (.node (.node (.node (.leaf (.atom 1249)) (.nil)) (.nil)) (.nil)))) (.nil))) (.node (.node (.node (.nil) (.node (.node (.node (.node (.leaf (.trans [(2359642, .ofNat 1), (3482907, .ofNat 1), (897660651, .negSucc 0), (1308105718, .ofNat 1), (2066608083, .negSucc 0), (320027096854, .negSucc 0), (552954933826, .negSucc 0), (626990794786, .negSucc 0), (747792399621, .negSucc 0)] 0)) (.nil)) (.nil)) (.nil)) (.node (.node (.node (.leaf (.atom 1063)) (.nil)) (.nil)) (.nil)))) (.nil)) (.node (.node (.nil) (.node (.nil) (.node (.node (.node (.leaf (.atom 1433)) (.nil)) (.nil)) (.nil)))) (.node (.nil) (.node (.nil) (.node (.node (.node (.nil) (.leaf (.atom 1571))) (.nil)) (.nil))))))

def turnQ6_26 : JTree := .node (.node (.node (.node (.nil) (.node (.nil) (.node (.node (.node (.leaf (.trans [(3508448318, .ofNat 1), (5348128593, .negSucc 0), (904243495774, .negSucc 0), (2081763208942, .negSucc 0), (2964821609847, .negSucc 0), (725341415019591, .ofNat 1), (753276210551554, .negSucc 0), (1253272357516629, .ofNat 1), (1421074636382469, .ofNat 1)] 0)) (.nil)) (.nil)) (.nil)))) (.node (.node (.node (.node (.node (.leaf (.atom 563)) (.nil)) (.nil)) (.nil)) (.nil)) (.nil))) (.node (.nil) (.node (.node (.node (.node (.node (.leaf (.atom 683)) (.nil)) (.nil)) (.nil)) (.nil)) (.nil)))) (.node (.node (.node (.node (.node (.node (.node (.leaf (.atom 283)) (.nil)) (.nil)) (.nil)) (.nil)) (.nil)) (.nil)) (.node (.node (.node (.node (.node (.node (.leaf (.atom 431)) (.nil)) (.nil)) (.nil)) (.nil)) (.nil)) (.nil)))

def turnQ6_27 : JTree := .node (.node (.node (.node (.node (.node (.node (.node (.leaf (.atom 47)) (.nil)) (.nil)) (.nil)) (.nil)) (.node (.nil) (.node (.node (.node (.leaf (.atom 1019)) (.nil)) (.nil)) (.nil)))) (.node (.node (.node (.node (.node (.leaf (.atom 509)) (.nil)) (.nil)) (.nil)) (.nil)) (.nil))) (.node (.node (.nil) (.node (.nil) (.node (.node (.node (.leaf (.atom 1291)) (.nil)) (.nil)) (.nil)))) (.nil))) (.node (.node (.node (.node (.node (.node (.node (.leaf (.atom 257)) (.nil)) (.nil)) (.nil)) (.nil)) (.node (.nil) (.node (.node (.node (.leaf (.atom 1103)) (.nil)) (.nil)) (.nil)))) (.nil)) (.node (.node (.nil) (.node (.nil) (.node (.node (.node (.leaf (.atom 1483)) (.nil)) (.nil)) (.nil)))) (.nil)))

def turnQ6_28 : JTree := .node (.node (.node (.node (.nil) (.node (.node (.node (.node (.leaf (.trans [(870334, .ofNat 1), (1239519, .ofNat 1), (303247407, .negSucc 0), (314926258, .ofNat 1)] 0)) (.nil)) (.nil)) (.nil)) (.node (.node (.node (.leaf (.trans [] 0)) (.nil)) (.nil)) (.nil)))) (.node (.node (.node (.node (.node (.leaf (.atom 601)) (.nil)) (.nil)) (.nil)) (.nil)) (.nil))) (.node (.node (.node (.node (.node (.node (.leaf (.atom 359)) (.nil)) (.nil)) (.nil)) (.nil)) (.nil)) (.node (.nil) (.node (.nil) (.node (.node (.node (.nil) (.leaf (.atom 1559))) (.nil)) (.nil)))))) (.node (.node (.node (.node (.node (.node (.node (.leaf (.trans [(753, .negSucc 0), (782, .ofNat 1)] 0)) (.nil)) (.nil)) (.nil)) (.nil)) (.node (.nil) (.node (.node (.node (.leaf (.atom 1217)) (.nil)) (.nil)) (.nil)))) (.nil)) (.node (.node (.nil) (.node (.node (.node (.node (.leaf (.atom 827)) (.nil)) (.nil)) (.nil)) (.nil))) (.node (.node (.nil) (.node (.node (.node (.leaf (.atom 907)) (.nil)) (.nil)) (.nil))) (.nil))))

def turnQ6_29 : JTree := .node (.node (.node (.node (.node (.node (.node (.node (.leaf (.trans [(2, .ofNat 1)] 0)) (.nil)) (.nil)) (.nil)) (.nil)) (.node (.nil) (.node (.node (.node (.leaf (.atom 991)) (.nil)) (.nil)) (.nil)))) (.node (.node (.node (.node (.node (.leaf (.atom 491)) (.nil)) (.nil)) (.nil)) (.nil)) (.nil))) (.node (.node (.nil) (.node (.nil) (.node (.node (.node (.leaf (.atom 1279)) (.nil)) (.nil)) (.nil)))) (.nil))) (.node (.node (.node (.nil) (.node (.nil) (.node (.node (.node (.leaf (.atom 1091)) (.nil)) (.nil)) (.nil)))) (.node (.node (.node (.node (.node (.leaf (.atom 653)) (.nil)) (.nil)) (.nil)) (.nil)) (.nil))) (.node (.node (.nil) (.node (.node (.node (.node (.leaf (.atom 769)) (.nil)) (.nil)) (.nil)) (.node (.node (.node (.leaf (.atom 1453)) (.nil)) (.nil)) (.nil)))) (.nil)))

def turnQ6_30 : JTree := .node (.node (.node (.node (.nil) (.node (.node (.node (.node (.leaf (.atom 751)) (.nil)) (.nil)) (.nil)) (.nil))) (.node (.node (.node (.node (.node (.leaf (.atom 577)) (.nil)) (.nil)) (.nil)) (.nil)) (.nil))) (.node (.node (.nil) (.node (.nil) (.node (.node (.node (.leaf (.atom 1327)) (.nil)) (.nil)) (.nil)))) (.node (.node (.node (.node (.node (.leaf (.atom 719)) (.nil)) (.nil)) (.nil)) (.nil)) (.node (.nil) (.node (.node (.node (.nil) (.leaf (.atom 1543))) (.nil)) (.nil)))))) (.node (.node (.node (.node (.node (.node (.node (.leaf (.trans [(58, .ofNat 1), (69, .ofNat 1)] 0)) (.nil)) (.nil)) (.nil)) (.nil)) (.node (.nil) (.node (.node (.node (.leaf (.atom 1193)) (.nil)) (.nil)) (.nil)))) (.nil)) (.node (.node (.node (.node (.node (.node (.leaf (.atom 449)) (.nil)) (.nil)) (.nil)) (.nil)) (.nil)) (.nil)))

def turnQ6_31 : JTree := .node (.node (.node (.node (.node (.node (.node (.node (.leaf (.atom 61)) (.nil)) (.nil)) (.nil)) (.nil)) (.node (.node (.node (.node (.leaf (.atom 743)) (.nil)) (.nil)) (.nil)) (.node (.node (.node (.leaf (.trans [(1315074674, .ofNat 1), (1872913209, .ofNat 1), (458206831977, .negSucc 0), (475853575838, .ofNat 1)] 0)) (.nil)) (.nil)) (.nil)))) (.node (.node (.node (.node (.node (.leaf (.atom 541)) (.nil)) (.nil)) (.nil)) (.nil)) (.node (.node (.node (.node (.leaf (.atom 859)) (.nil)) (.nil)) (.nil)) (.nil)))) (.node (.node (.nil) (.node (.nil) (.node (.node (.node (.leaf (.atom 1303)) (.nil)) (.nil)) (.nil)))) (.nil))) (.node (.node (.node (.node (.node (.node (.node (.leaf (.atom 271)) (.nil)) (.nil)) (.nil)) (.nil)) (.node (.nil) (.node (.node (.node (.leaf (.atom 1129)) (.nil)) (.nil)) (.nil)))) (.nil)) (.node (.node (.node (.node (.node (.node (.leaf (.atom 401)) (.nil)) (.nil)) (.nil)) (.nil)) (.node (.node (.node (.node (.leaf (.atom 773)) (.nil)) (.nil)) (.nil)) (.node (.node (.node (.leaf (.atom 1499)) (.nil)) (.nil)) (.nil)))) (.nil)))

def turnQ6_32 : JTree := .node (.node (.node (.node (.node (.node (.node (.node (.leaf (.trans [(437, .ofNat 1)] 0)) (.nil)) (.nil)) (.nil)) (.nil)) (.node (.node (.node (.node (.leaf (.trans [(2321938, .ofNat 1), (3539463, .negSucc 0), (598440434, .negSucc 0), (1377738722, .negSucc 0), (1962158577, .negSucc 0), (480040645281, .ofNat 1), (498528266414, .negSucc 0), (829432400739, .ofNat 1), (940486192179, .ofNat 1)] 0)) (.nil)) (.nil)) (.nil)) (.node (.node (.node (.leaf (.trans [(897314354, .negSucc 0), (1277944089, .negSucc 0), (312648076617, .ofNat 1), (324688971998, .negSucc 0), (995511528218, .ofNat 1), (1417795299213, .ofNat 1), (346862571806589, .negSucc 0), (360221156909366, .ofNat 1)] 0)) (.nil)) (.nil)) (.nil)))) (.node (.node (.node (.node (.node (.leaf (.atom 617)) (.nil)) (.nil)) (.nil)) (.nil)) (.nil))) (.node (.node (.node (.node (.node (.node (.leaf (.atom 379)) (.nil)) (.nil)) (.nil)) (.nil)) (.node (.nil) (.node (.node (.node (.leaf (.atom 1423)) (.nil)) (.nil)) (.nil)))) (.nil))) (.node (.node (.node (.node (.node (.node (.node (.leaf (.trans [(554, .ofNat 1), (789, .ofNat 1)] 0)) (.nil)) (.nil)) (.nil)) (.nil)) (.nil)) (.nil)) (.node (.nil) (.node (.node (.nil) (.node (.node (.node (.leaf (.atom 937)) (.nil)) (.nil)) (.nil))) (.nil))))

/-- The cells as polynomials, `2` and `3` being the cosine and the sine of q6. -/
def turnQ6 : JTree := .node (.node (.node (.node (.node (turnQ6_1) (turnQ6_2)) (.node (turnQ6_3) (turnQ6_4))) (.node (.node (turnQ6_5) (turnQ6_6)) (.node (turnQ6_7) (turnQ6_8)))) (.node (.node (.node (turnQ6_9) (turnQ6_10)) (.node (turnQ6_11) (turnQ6_12))) (.node (.node (turnQ6_13) (turnQ6_14)) (.node (turnQ6_15) (turnQ6_16))))) (.node (.node (.node (.node (turnQ6_17) (turnQ6_18)) (.node (turnQ6_19) (turnQ6_20))) (.node (.node (turnQ6_21) (turnQ6_22)) (.node (turnQ6_23) (turnQ6_24)))) (.node (.node (.node (turnQ6_25) (turnQ6_26)) (.node (turnQ6_27) (turnQ6_28))) (.node (.node (turnQ6_29) (turnQ6_30)) (.node (turnQ6_31) (turnQ6_32)))))

/-- The primes of the other cells. -/
def turnQ6Primes : List (ℕ × ℕ) := [(11, 1), (13, 2), (17, 3), (19, 4), (23, 5), (29, 6), (41, 9), (43, 10), (47, 11), (53, 12), (67, 13), (71, 14), (61, 15), (59, 17), (251, 42), (257, 43), (263, 45), (269, 46), (271, 47), (277, 49), (281, 50), (283, 51), (293, 52), (307, 73), (311, 74), (313, 76), (317, 77), (331, 78), (337, 80), (347, 81), (349, 82), (353, 90), (359, 91), (367, 92), (373, 94), (379, 95), (383, 97), (389, 109), (397, 110), (401, 111), (409, 112), (419, 113), (421, 114), (431, 115), (433, 116), (439, 117), (443, 118), (449, 119), (457, 126), (461, 128), (463, 130), (467, 131), (479, 132), (487, 134), (491, 135), (499, 137), (503, 138), (509, 139), (521, 140), (523, 141), (541, 143), (547, 145), (557, 146), (563, 147), (569, 148), (571, 149), (577, 151), (587, 152), (593, 153), (599, 154), (601, 155), (607, 156), (613, 157), (617, 159), (619, 160), (631, 162), (641, 164), (643, 165), (647, 166), (653, 167), (659, 168), (661, 169), (673, 209), (677, 210), (683, 211), (691, 212), (701, 213), (709, 214), (719, 215), (727, 216), (733, 217), (739, 270), (743, 271), (751, 279), (757, 282), (761, 358), (769, 359), (773, 367), (787, 368), (797, 369), (809, 372), (811, 373), (821, 374), (823, 378), (827, 379), (829, 380), (839, 384), (853, 385), (857, 386), (859, 399), (863, 400), (877, 401), (5, 494), (881, 760), (883, 761), (887, 762), (907, 763), (911, 764), (919, 765), (929, 766), (937, 767), (941, 768), (947, 769), (953, 770), (967, 771), (971, 772), (977, 773), (983, 774), (991, 775), (997, 776), (1009, 777), (1013, 778), (1019, 779), (1021, 780), (1031, 782), (1033, 788), (1039, 789), (1049, 790), (1051, 792), (1061, 798), (1063, 803), (1069, 804), (1087, 806), (1091, 807), (1093, 808), (1097, 809), (1103, 811), (1109, 812), (1117, 813), (1123, 814), (1129, 815), (1151, 816), (1153, 817), (1163, 818), (1171, 820), (1181, 821), (1187, 822), (1193, 823), (1201, 825), (1213, 826), (1217, 827), (1223, 828), (1229, 829), (1231, 833), (1237, 834), (1249, 835), (1259, 837), (1277, 838), (1279, 839), (1283, 840), (1289, 842), (1291, 843), (1297, 844), (1301, 846), (1303, 847), (1307, 848), (1319, 849), (1321, 850), (1327, 855), (1361, 856), (1367, 857), (1373, 858), (1381, 860), (1399, 861), (1409, 862), (1423, 863), (1427, 865), (1429, 866), (1433, 867), (1439, 868), (1447, 869), (1451, 870), (1453, 871), (1459, 872), (1471, 873), (1481, 874), (1483, 875), (1487, 876), (1489, 877), (1493, 878), (1499, 879), (1511, 5058), (1523, 5077), (1531, 5078), (1543, 5079), (1549, 5080), (1553, 5081), (1559, 5083), (1567, 5090), (1571, 5091), (1579, 5093), (1583, 5094)]

/-- Variables for polynomials. -/
def turnQ6Ghosts : List (ℕ × Poly × ℕ) := []

def turnQ8_1 : JTree := .node (.node (.node (.node (.nil) (.node (.nil) (.node (.node (.node (.leaf (.atom 1039)) (.nil)) (.nil)) (.nil)))) (.node (.node (.node (.node (.node (.leaf (.atom 499)) (.nil)) (.nil)) (.nil)) (.nil)) (.node (.node (.node (.node (.leaf (.atom 937)) (.nil)) (.nil)) (.nil)) (.nil)))) (.node (.node (.node (.node (.node (.node (.leaf (.atom 353)) (.nil)) (.nil)) (.nil)) (.nil)) (.node (.nil) (.node (.node (.node (.leaf (.trans [(2236917938, .ofNat 1), (2262081902, .ofNat 1), (2288463794, .ofNat 1), (3101821977, .ofNat 1), (3130551327, .ofNat 1), (3206966487, .ofNat 1), (387413248322, .ofNat 1), (567552871569, .ofNat 1)] 0)) (.nil)) (.nil)) (.nil)))) (.nil))) (.node (.node (.node (.node (.node (.node (.node (.leaf (.atom 257)) (.nil)) (.nil)) (.nil)) (.nil)) (.nil)) (.node (.node (.node (.node (.node (.leaf (.atom 661)) (.nil)) (.nil)) (.nil)) (.nil)) (.nil))) (.node (.node (.node (.node (.node (.node (.leaf (.trans [(802, .ofNat 1), (1137, .ofNat 1)] 0)) (.nil)) (.nil)) (.nil)) (.nil)) (.nil)) (.nil)))

def turnQ8_2 : JTree := .node (.node (.node (.node (.nil) (.node (.nil) (.node (.node (.node (.leaf (.atom 1123)) (.nil)) (.nil)) (.nil)))) (.node (.nil) (.node (.node (.node (.node (.leaf (.atom 967)) (.nil)) (.nil)) (.nil)) (.nil)))) (.node (.node (.node (.node (.node (.node (.leaf (.atom 409)) (.nil)) (.nil)) (.nil)) (.nil)) (.node (.nil) (.node (.node (.node (.leaf (.trans [(1832923514, .ofNat 1), (1849900214, .ofNat 1), (1895055334, .ofNat 1), (2974130661, .negSucc 0), (3007587819, .negSucc 0), (3042664293, .negSucc 0), (335377404458, .ofNat 1), (515091591309, .negSucc 0), (1763902764254, .negSucc 0), (1780240187954, .negSucc 0), (1823694942274, .negSucc 0), (2862136501671, .ofNat 1), (2894333793609, .ofNat 1), (2928089424423, .ofNat 1), (322748399632238, .negSucc 0), (495695251227999, .ofNat 1)] 0)) (.nil)) (.nil)) (.nil)))) (.nil))) (.node (.node (.node (.node (.node (.node (.node (.leaf (.atom 293)) (.nil)) (.nil)) (.nil)) (.nil)) (.node (.nil) (.node (.node (.node (.leaf (.atom 1321)) (.nil)) (.nil)) (.nil)))) (.nil)) (.node (.node (.node (.node (.node (.node (.leaf (.atom 443)) (.nil)) (.nil)) (.nil)) (.nil)) (.node (.node (.node (.node (.leaf (.atom 877)) (.nil)) (.nil)) (.nil)) (.nil))) (.nil)))

def turnQ8_3 : JTree := .node (.node (.node (.node (.node (.node (.node (.node (.leaf (.atom 37)) (.nil)) (.nil)) (.nil)) (.nil)) (.node (.nil) (.node (.node (.node (.leaf (.atom 1093)) (.nil)) (.nil)) (.nil)))) (.nil)) (.node (.node (.node (.nil) (.node (.node (.node (.leaf (.atom 983)) (.nil)) (.nil)) (.nil))) (.node (.node (.node (.node (.leaf (.trans [(2771998, .ofNat 1), (2784578, .ofNat 1), (2829166, .ofNat 1), (4269801, .negSucc 0), (4285101, .negSucc 0), (4301553, .negSucc 0), (757866134, .ofNat 1), (1100885739, .negSucc 0), (2368099442, .negSucc 0), (2394739118, .negSucc 0), (2422668146, .negSucc 0), (3283724793, .negSucc 0), (3314138943, .negSucc 0), (3395035383, .negSucc 0), (410132656898, .negSucc 0), (600836363121, .negSucc 0)] 0)) (.nil)) (.nil)) (.nil)) (.node (.node (.node (.leaf (.atom 1471)) (.nil)) (.nil)) (.nil)))) (.node (.nil) (.node (.nil) (.node (.node (.node (.nil) (.leaf (.atom 1637))) (.nil)) (.nil)))))) (.node (.node (.node (.node (.node (.node (.node (.leaf (.atom 269)) (.nil)) (.nil)) (.nil)) (.nil)) (.node (.nil) (.node (.node (.node (.leaf (.atom 1283)) (.nil)) (.nil)) (.nil)))) (.node (.node (.node (.node (.node (.leaf (.atom 719)) (.nil)) (.nil)) (.nil)) (.nil)) (.nil))) (.node (.node (.nil) (.node (.nil) (.node (.node (.node (.leaf (.atom 1597)) (.nil)) (.nil)) (.nil)))) (.nil)))

def turnQ8_4 : JTree := .node (.node (.node (.node (.nil) (.node (.nil) (.node (.node (.node (.leaf (.atom 1187)) (.nil)) (.nil)) (.nil)))) (.node (.node (.node (.node (.node (.leaf (.atom 619)) (.nil)) (.nil)) (.nil)) (.nil)) (.nil))) (.node (.node (.node (.node (.node (.node (.leaf (.trans [(502, .ofNat 1), (771, .negSucc 0)] 0)) (.nil)) (.nil)) (.nil)) (.nil)) (.node (.nil) (.node (.node (.node (.leaf (.atom 1489)) (.nil)) (.nil)) (.nil)))) (.node (.node (.node (.node (.node (.leaf (.atom 773)) (.nil)) (.nil)) (.nil)) (.nil)) (.node (.nil) (.node (.node (.node (.nil) (.leaf (.atom 1669))) (.nil)) (.nil)))))) (.node (.node (.node (.nil) (.node (.nil) (.node (.node (.node (.leaf (.atom 1423)) (.nil)) (.nil)) (.nil)))) (.nil)) (.node (.nil) (.node (.node (.nil) (.node (.node (.node (.leaf (.atom 991)) (.nil)) (.nil)) (.nil))) (.nil))))

def turnQ8_5 : JTree := .node (.node (.node (.node (.node (.node (.node (.node (.leaf (.atom 19)) (.nil)) (.nil)) (.nil)) (.nil)) (.node (.nil) (.node (.node (.node (.leaf (.atom 1063)) (.nil)) (.nil)) (.nil)))) (.node (.node (.node (.node (.node (.leaf (.atom 521)) (.nil)) (.nil)) (.nil)) (.nil)) (.nil))) (.node (.node (.nil) (.node (.node (.node (.node (.leaf (.trans [(1646, .ofNat 1), (2391, .negSucc 0), (890762, .negSucc 0), (1304949, .negSucc 0)] 0)) (.nil)) (.nil)) (.nil)) (.node (.node (.node (.leaf (.trans [(1240846, .ofNat 1), (1969311, .negSucc 0)] 0)) (.nil)) (.nil)) (.nil)))) (.nil))) (.node (.node (.node (.nil) (.node (.nil) (.node (.node (.node (.leaf (.atom 1249)) (.nil)) (.nil)) (.nil)))) (.node (.node (.node (.node (.node (.leaf (.atom 683)) (.nil)) (.nil)) (.nil)) (.nil)) (.nil))) (.node (.node (.nil) (.node (.nil) (.node (.node (.node (.leaf (.atom 1567)) (.nil)) (.nil)) (.nil)))) (.nil)))

def turnQ8_6 : JTree := .node (.node (.node (.node (.nil) (.node (.nil) (.node (.node (.node (.leaf (.atom 1163)) (.nil)) (.nil)) (.nil)))) (.node (.node (.node (.node (.node (.leaf (.atom 601)) (.nil)) (.nil)) (.nil)) (.nil)) (.nil))) (.node (.nil) (.node (.node (.node (.node (.node (.leaf (.atom 751)) (.nil)) (.nil)) (.nil)) (.nil)) (.nil)))) (.node (.node (.node (.node (.node (.node (.node (.leaf (.atom 317)) (.nil)) (.nil)) (.nil)) (.nil)) (.node (.node (.node (.node (.leaf (.atom 823)) (.nil)) (.nil)) (.nil)) (.node (.node (.node (.leaf (.atom 1373)) (.nil)) (.nil)) (.nil)))) (.nil)) (.node (.node (.node (.node (.node (.node (.leaf (.atom 463)) (.nil)) (.nil)) (.nil)) (.nil)) (.node (.node (.node (.node (.leaf (.atom 883)) (.nil)) (.nil)) (.nil)) (.nil))) (.nil)))

def turnQ8_7 : JTree := .node (.node (.node (.node (.node (.node (.node (.node (.leaf (.trans [(3, .ofNat 1)] 0)) (.nil)) (.nil)) (.nil)) (.nil)) (.node (.node (.node (.node (.leaf (.atom 797)) (.nil)) (.nil)) (.nil)) (.node (.node (.node (.leaf (.atom 1117)) (.nil)) (.nil)) (.nil)))) (.node (.node (.node (.node (.node (.leaf (.atom 569)) (.nil)) (.nil)) (.nil)) (.nil)) (.nil))) (.node (.node (.node (.node (.node (.node (.leaf (.atom 383)) (.nil)) (.nil)) (.nil)) (.nil)) (.node (.node (.node (.node (.leaf (.trans [(1678, .ofNat 1), (2433, .ofNat 1), (1292818, .ofNat 1), (2126391, .negSucc 0)] 0)) (.nil)) (.nil)) (.nil)) (.node (.node (.node (.leaf (.trans [(1299778, .ofNat 1), (1802337, .ofNat 1)] 0)) (.nil)) (.nil)) (.nil)))) (.nil))) (.node (.node (.node (.nil) (.node (.nil) (.node (.node (.node (.leaf (.atom 1301)) (.nil)) (.nil)) (.nil)))) (.nil)) (.node (.node (.nil) (.node (.nil) (.node (.node (.node (.leaf (.atom 1613)) (.nil)) (.nil)) (.nil)))) (.nil)))

def turnQ8_8 : JTree := .node (.node (.node (.node (.node (.node (.node (.node (.leaf (.atom 251)) (.nil)) (.nil)) (.nil)) (.nil)) (.node (.nil) (.node (.node (.node (.leaf (.atom 1217)) (.nil)) (.nil)) (.nil)))) (.node (.node (.node (.node (.node (.leaf (.atom 647)) (.nil)) (.nil)) (.nil)) (.nil)) (.nil))) (.node (.node (.node (.node (.node (.node (.leaf (.trans [(746, .ofNat 1), (1227, .negSucc 0)] 0)) (.nil)) (.nil)) (.nil)) (.nil)) (.node (.nil) (.node (.node (.node (.leaf (.atom 1511)) (.nil)) (.nil)) (.nil)))) (.nil))) (.node (.node (.node (.node (.node (.node (.node (.leaf (.atom 331)) (.nil)) (.nil)) (.nil)) (.nil)) (.node (.nil) (.node (.node (.node (.leaf (.atom 1439)) (.nil)) (.nil)) (.nil)))) (.nil)) (.node (.node (.nil) (.node (.node (.node (.node (.leaf (.atom 929)) (.nil)) (.nil)) (.nil)) (.nil))) (.node (.node (.nil) (.node (.node (.node (.leaf (.atom 1019)) (.nil)) (.nil)) (.nil))) (.nil))))

def turnQ8_9 : JTree := .node (.node (.node (.node (.node (.node (.node (.node (.leaf (.atom 13)) (.nil)) (.nil)) (.nil)) (.nil)) (.node (.nil) (.node (.node (.node (.leaf (.atom 1051)) (.nil)) (.nil)) (.nil)))) (.node (.node (.node (.node (.node (.leaf (.atom 503)) (.nil)) (.nil)) (.nil)) (.nil)) (.node (.node (.node (.node (.leaf (.atom 947)) (.nil)) (.nil)) (.nil)) (.nil)))) (.node (.node (.nil) (.node (.node (.node (.node (.leaf (.atom 853)) (.nil)) (.nil)) (.nil)) (.node (.node (.node (.leaf (.trans [(1201558, .ofNat 1), (1949667, .negSucc 0)] 0)) (.nil)) (.nil)) (.nil)))) (.nil))) (.node (.node (.nil) (.node (.node (.node (.node (.node (.leaf (.atom 677)) (.nil)) (.nil)) (.nil)) (.nil)) (.nil))) (.node (.node (.nil) (.node (.nil) (.node (.node (.node (.leaf (.atom 1553)) (.nil)) (.nil)) (.nil)))) (.node (.nil) (.node (.nil) (.node (.node (.node (.nil) (.leaf (.atom 1699))) (.nil)) (.nil))))))

def turnQ8_10 : JTree := .node (.node (.node (.node (.nil) (.node (.nil) (.node (.node (.node (.leaf (.atom 1151)) (.nil)) (.nil)) (.nil)))) (.node (.node (.node (.node (.node (.leaf (.atom 593)) (.nil)) (.nil)) (.nil)) (.nil)) (.nil))) (.node (.node (.node (.node (.node (.node (.leaf (.atom 421)) (.nil)) (.nil)) (.nil)) (.nil)) (.node (.nil) (.node (.node (.node (.leaf (.trans [(1982753774, .negSucc 0), (2005058546, .negSucc 0), (2028442862, .negSucc 0), (2749385271, .negSucc 0), (2774850321, .negSucc 0), (2842583001, .negSucc 0), (343394394206, .negSucc 0), (503066106687, .negSucc 0), (1908091001114, .ofNat 1), (1929555862406, .ofNat 1), (1952059616282, .ofNat 1), (2645854146381, .ofNat 1), (2670360281931, .ofNat 1), (2735542413411, .ofNat 1), (330463500818666, .ofNat 1), (484122599448357, .ofNat 1)] 0)) (.nil)) (.nil)) (.nil)))) (.node (.node (.node (.node (.node (.leaf (.atom 739)) (.nil)) (.nil)) (.nil)) (.nil)) (.nil)))) (.node (.node (.node (.node (.node (.node (.node (.leaf (.atom 311)) (.nil)) (.nil)) (.nil)) (.nil)) (.node (.nil) (.node (.node (.node (.leaf (.atom 1361)) (.nil)) (.nil)) (.nil)))) (.nil)) (.node (.node (.node (.node (.node (.node (.leaf (.atom 457)) (.nil)) (.nil)) (.nil)) (.nil)) (.nil)) (.nil)))

def turnQ8_11 : JTree := .node (.node (.node (.node (.node (.node (.node (.node (.leaf (.atom 43)) (.nil)) (.nil)) (.nil)) (.nil)) (.node (.nil) (.node (.node (.node (.leaf (.atom 1103)) (.nil)) (.nil)) (.nil)))) (.node (.node (.node (.node (.node (.leaf (.atom 557)) (.nil)) (.nil)) (.nil)) (.nil)) (.nil))) (.node (.node (.node (.node (.node (.node (.leaf (.atom 373)) (.nil)) (.nil)) (.nil)) (.nil)) (.node (.node (.node (.node (.leaf (.trans [(1654, .ofNat 1), (2427, .ofNat 1), (1272022, .ofNat 1), (2064003, .negSucc 0)] 0)) (.nil)) (.nil)) (.nil)) (.node (.node (.node (.leaf (.atom 1481)) (.nil)) (.nil)) (.nil)))) (.nil))) (.node (.node (.node (.nil) (.node (.nil) (.node (.node (.node (.leaf (.atom 1291)) (.nil)) (.nil)) (.nil)))) (.nil)) (.node (.node (.nil) (.node (.nil) (.node (.node (.node (.leaf (.atom 1607)) (.nil)) (.nil)) (.nil)))) (.nil)))

def turnQ8_12 : JTree := .node (.node (.node (.node (.nil) (.node (.nil) (.node (.node (.node (.leaf (.atom 1201)) (.nil)) (.nil)) (.nil)))) (.node (.node (.node (.node (.node (.leaf (.atom 641)) (.nil)) (.nil)) (.nil)) (.nil)) (.nil))) (.node (.node (.node (.node (.node (.node (.leaf (.trans [(136042, .ofNat 1), (208941, .negSucc 0)] 0)) (.nil)) (.nil)) (.nil)) (.nil)) (.node (.nil) (.node (.node (.node (.leaf (.atom 1499)) (.nil)) (.nil)) (.nil)))) (.node (.nil) (.node (.nil) (.node (.node (.node (.nil) (.leaf (.atom 1697))) (.nil)) (.nil)))))) (.node (.node (.node (.nil) (.node (.nil) (.node (.node (.node (.leaf (.atom 1429)) (.nil)) (.nil)) (.nil)))) (.nil)) (.node (.node (.nil) (.node (.node (.node (.node (.leaf (.atom 911)) (.nil)) (.nil)) (.nil)) (.nil))) (.node (.node (.nil) (.node (.node (.node (.leaf (.atom 1009)) (.nil)) (.nil)) (.nil))) (.nil))))

def turnQ8_13 : JTree := .node (.node (.node (.node (.node (.node (.node (.node (.leaf (.atom 29)) (.nil)) (.nil)) (.nil)) (.nil)) (.node (.nil) (.node (.node (.node (.leaf (.atom 1087)) (.nil)) (.nil)) (.nil)))) (.node (.node (.node (.node (.node (.leaf (.atom 523)) (.nil)) (.nil)) (.nil)) (.nil)) (.nil))) (.node (.node (.node (.nil) (.node (.node (.node (.leaf (.atom 977)) (.nil)) (.nil)) (.nil))) (.node (.node (.node (.node (.leaf (.trans [(1622, .ofNat 1), (2517, .negSucc 0), (1417594, .negSucc 0), (1939227, .negSucc 0)] 0)) (.nil)) (.nil)) (.nil)) (.node (.node (.node (.leaf (.atom 1453)) (.nil)) (.nil)) (.nil)))) (.nil))) (.node (.node (.node (.nil) (.node (.nil) (.node (.node (.node (.leaf (.atom 1277)) (.nil)) (.nil)) (.nil)))) (.node (.node (.node (.node (.node (.leaf (.atom 701)) (.nil)) (.nil)) (.nil)) (.nil)) (.nil))) (.node (.node (.nil) (.node (.node (.node (.node (.leaf (.atom 857)) (.nil)) (.nil)) (.nil)) (.node (.node (.node (.leaf (.atom 1579)) (.nil)) (.nil)) (.nil)))) (.nil)))

def turnQ8_14 : JTree := .node (.node (.node (.node (.nil) (.node (.nil) (.node (.node (.node (.leaf (.atom 1181)) (.nil)) (.nil)) (.nil)))) (.node (.node (.node (.node (.node (.leaf (.atom 613)) (.nil)) (.nil)) (.nil)) (.nil)) (.nil))) (.node (.nil) (.node (.node (.node (.node (.node (.leaf (.atom 761)) (.nil)) (.nil)) (.nil)) (.nil)) (.node (.nil) (.node (.node (.node (.nil) (.leaf (.atom 1663))) (.nil)) (.nil)))))) (.node (.node (.node (.nil) (.node (.nil) (.node (.node (.node (.leaf (.atom 1399)) (.nil)) (.nil)) (.nil)))) (.nil)) (.node (.node (.node (.node (.node (.node (.leaf (.atom 479)) (.nil)) (.nil)) (.nil)) (.nil)) (.node (.node (.node (.node (.leaf (.atom 907)) (.nil)) (.nil)) (.nil)) (.nil))) (.nil)))

def turnQ8_15 : JTree := .node (.node (.node (.node (.node (.node (.node (.node (.leaf (.atom 71)) (.nil)) (.nil)) (.nil)) (.nil)) (.nil)) (.nil)) (.node (.node (.node (.node (.node (.node (.leaf (.atom 397)) (.nil)) (.nil)) (.nil)) (.nil)) (.node (.nil) (.node (.node (.node (.leaf (.trans [(1339066, .ofNat 1), (1831803, .ofNat 1)] 0)) (.nil)) (.nil)) (.nil)))) (.nil))) (.node (.node (.node (.node (.node (.node (.node (.leaf (.atom 281)) (.nil)) (.nil)) (.nil)) (.nil)) (.node (.node (.node (.node (.leaf (.atom 811)) (.nil)) (.nil)) (.nil)) (.node (.node (.node (.leaf (.atom 1307)) (.nil)) (.nil)) (.nil)))) (.nil)) (.node (.node (.node (.node (.node (.node (.leaf (.atom 433)) (.nil)) (.nil)) (.nil)) (.nil)) (.node (.nil) (.node (.node (.node (.leaf (.atom 1621)) (.nil)) (.nil)) (.nil)))) (.node (.nil) (.node (.node (.node (.node (.leaf (.atom 5)) (.nil)) (.nil)) (.nil)) (.nil)))))

def turnQ8_16 : JTree := .node (.node (.node (.node (.nil) (.node (.nil) (.node (.node (.node (.leaf (.atom 1229)) (.nil)) (.nil)) (.nil)))) (.nil)) (.node (.node (.node (.node (.node (.node (.leaf (.trans [(139294, .ofNat 1), (204063, .ofNat 1)] 0)) (.nil)) (.nil)) (.nil)) (.nil)) (.node (.nil) (.node (.node (.node (.leaf (.atom 1531)) (.nil)) (.nil)) (.nil)))) (.nil))) (.node (.node (.node (.node (.node (.node (.node (.leaf (.atom 347)) (.nil)) (.nil)) (.nil)) (.nil)) (.node (.node (.node (.node (.leaf (.atom 829)) (.nil)) (.nil)) (.nil)) (.node (.node (.node (.leaf (.trans [(2067881318, .ofNat 1), (2087034218, .ofNat 1), (2137977658, .ofNat 1), (3355376907, .negSucc 0), (3393122853, .negSucc 0), (3432695691, .negSucc 0), (378368581046, .ofNat 1), (581119872483, .negSucc 0)] 0)) (.nil)) (.nil)) (.nil)))) (.nil)) (.node (.node (.node (.node (.node (.node (.leaf (.atom 491)) (.nil)) (.nil)) (.nil)) (.nil)) (.nil)) (.node (.node (.nil) (.node (.node (.node (.leaf (.atom 1031)) (.nil)) (.nil)) (.nil))) (.nil))))

def turnQ8_17 : JTree := .node (.node (.node (.node (.node (.node (.node (.node (.leaf (.atom 11)) (.nil)) (.nil)) (.nil)) (.nil)) (.node (.nil) (.node (.node (.node (.leaf (.atom 1049)) (.nil)) (.nil)) (.nil)))) (.node (.nil) (.node (.node (.node (.node (.leaf (.atom 941)) (.nil)) (.nil)) (.nil)) (.nil)))) (.node (.node (.node (.node (.node (.node (.leaf (.atom 359)) (.nil)) (.nil)) (.nil)) (.nil)) (.node (.node (.node (.node (.leaf (.trans [(1263214, .ofNat 1), (1274914, .ofNat 1), (1306034, .ofNat 1), (2049711, .negSucc 0), (2072769, .negSucc 0), (2096943, .negSucc 0), (231135358, .ofNat 1), (354990759, .negSucc 0)] 0)) (.nil)) (.nil)) (.nil)) (.node (.node (.node (.leaf (.trans [(222700754, .ofNat 1), (342036417, .negSucc 0)] 0)) (.nil)) (.nil)) (.nil)))) (.nil))) (.node (.node (.nil) (.node (.node (.node (.node (.node (.leaf (.atom 673)) (.nil)) (.nil)) (.nil)) (.nil)) (.nil))) (.node (.node (.node (.node (.node (.node (.leaf (.trans [(818, .ofNat 1), (1119, .ofNat 1)] 0)) (.nil)) (.nil)) (.nil)) (.nil)) (.node (.nil) (.node (.node (.node (.leaf (.atom 1549)) (.nil)) (.nil)) (.nil)))) (.nil)))

def turnQ8_18 : JTree := .node (.node (.node (.node (.node (.node (.node (.node (.leaf (.atom 59)) (.nil)) (.nil)) (.nil)) (.nil)) (.node (.nil) (.node (.node (.node (.leaf (.atom 1129)) (.nil)) (.nil)) (.nil)))) (.node (.node (.node (.node (.node (.leaf (.atom 587)) (.nil)) (.nil)) (.nil)) (.nil)) (.node (.node (.node (.node (.leaf (.atom 971)) (.nil)) (.nil)) (.nil)) (.nil)))) (.node (.node (.node (.node (.node (.node (.leaf (.atom 419)) (.nil)) (.nil)) (.nil)) (.nil)) (.node (.nil) (.node (.node (.node (.leaf (.atom 1483)) (.nil)) (.nil)) (.nil)))) (.node (.node (.node (.node (.node (.leaf (.atom 733)) (.nil)) (.nil)) (.nil)) (.nil)) (.nil)))) (.node (.node (.node (.node (.node (.node (.node (.leaf (.atom 307)) (.nil)) (.nil)) (.nil)) (.nil)) (.node (.nil) (.node (.node (.node (.leaf (.atom 1327)) (.nil)) (.nil)) (.nil)))) (.nil)) (.node (.node (.node (.node (.node (.node (.leaf (.atom 449)) (.nil)) (.nil)) (.nil)) (.nil)) (.node (.node (.node (.node (.leaf (.atom 881)) (.nil)) (.nil)) (.nil)) (.nil))) (.nil)))

def turnQ8_19 : JTree := .node (.node (.node (.node (.node (.node (.node (.node (.leaf (.atom 41)) (.nil)) (.nil)) (.nil)) (.nil)) (.node (.nil) (.node (.node (.node (.leaf (.atom 1097)) (.nil)) (.nil)) (.nil)))) (.node (.node (.node (.node (.node (.leaf (.atom 547)) (.nil)) (.nil)) (.nil)) (.nil)) (.nil))) (.node (.node (.node (.node (.node (.node (.leaf (.atom 367)) (.nil)) (.nil)) (.nil)) (.nil)) (.node (.node (.node (.node (.leaf (.trans [(1594, .ofNat 1), (2469, .ofNat 1), (869966, .ofNat 1), (1336143, .negSucc 0)] 0)) (.nil)) (.nil)) (.nil)) (.nil))) (.nil))) (.node (.node (.node (.nil) (.node (.nil) (.node (.node (.node (.leaf (.atom 1289)) (.nil)) (.nil)) (.nil)))) (.node (.node (.node (.node (.node (.leaf (.atom 727)) (.nil)) (.nil)) (.nil)) (.nil)) (.nil))) (.node (.node (.nil) (.node (.nil) (.node (.node (.node (.leaf (.atom 1601)) (.nil)) (.nil)) (.nil)))) (.node (.nil) (.node (.nil) (.node (.node (.node (.nil) (.leaf (.atom 1733))) (.nil)) (.nil))))))

def turnQ8_20 : JTree := .node (.node (.node (.node (.nil) (.node (.nil) (.node (.node (.node (.leaf (.atom 1193)) (.nil)) (.nil)) (.nil)))) (.node (.node (.node (.node (.node (.leaf (.atom 631)) (.nil)) (.nil)) (.nil)) (.nil)) (.nil))) (.node (.node (.node (.node (.node (.node (.leaf (.trans [(514, .ofNat 1), (753, .ofNat 1)] 0)) (.nil)) (.nil)) (.nil)) (.nil)) (.node (.nil) (.node (.node (.node (.leaf (.atom 1493)) (.nil)) (.nil)) (.nil)))) (.node (.node (.node (.node (.node (.leaf (.atom 787)) (.nil)) (.nil)) (.nil)) (.nil)) (.node (.nil) (.node (.node (.node (.nil) (.leaf (.atom 1693))) (.nil)) (.nil)))))) (.node (.node (.node (.nil) (.node (.nil) (.node (.node (.node (.leaf (.atom 1427)) (.nil)) (.nil)) (.nil)))) (.nil)) (.node (.nil) (.node (.node (.nil) (.node (.node (.node (.leaf (.atom 997)) (.nil)) (.nil)) (.nil))) (.nil))))

def turnQ8_21 : JTree := .node (.node (.node (.node (.node (.node (.node (.node (.leaf (.atom 23)) (.nil)) (.nil)) (.nil)) (.nil)) (.node (.nil) (.node (.node (.node (.leaf (.atom 1069)) (.nil)) (.nil)) (.nil)))) (.nil)) (.node (.node (.nil) (.node (.node (.node (.node (.leaf (.trans [(1618, .ofNat 1), (2481, .negSucc 0), (1376002, .negSucc 0), (1908033, .negSucc 0)] 0)) (.nil)) (.nil)) (.nil)) (.node (.node (.node (.leaf (.trans [(4537760726, .ofNat 1), (4558354186, .ofNat 1), (4631344742, .ofNat 1), (6989664237, .negSucc 0), (7014710337, .negSucc 0), (7041642261, .negSucc 0), (1240626861358, .ofNat 1), (1802149954743, .negSucc 0), (3876578786554, .negSucc 0), (3920187936166, .negSucc 0), (3965907755002, .negSucc 0), (5375457486141, .negSucc 0), (5425245449691, .negSucc 0), (5557672921971, .negSucc 0), (671387159342026, .negSucc 0), (983569126429077, .negSucc 0)] 0)) (.nil)) (.nil)) (.nil)))) (.nil))) (.node (.node (.node (.nil) (.node (.nil) (.node (.node (.node (.leaf (.atom 1259)) (.nil)) (.nil)) (.nil)))) (.node (.node (.node (.node (.node (.leaf (.atom 691)) (.nil)) (.nil)) (.nil)) (.nil)) (.nil))) (.node (.node (.nil) (.node (.nil) (.node (.node (.node (.leaf (.atom 1571)) (.nil)) (.nil)) (.nil)))) (.node (.nil) (.node (.nil) (.node (.node (.node (.nil) (.leaf (.atom 1721))) (.nil)) (.nil))))))

def turnQ8_22 : JTree := .node (.node (.node (.node (.nil) (.node (.nil) (.node (.node (.node (.leaf (.atom 1171)) (.nil)) (.nil)) (.nil)))) (.node (.node (.node (.node (.node (.leaf (.atom 607)) (.nil)) (.nil)) (.nil)) (.nil)) (.nil))) (.node (.nil) (.node (.node (.node (.node (.node (.leaf (.atom 757)) (.nil)) (.nil)) (.nil)) (.nil)) (.node (.nil) (.node (.node (.node (.nil) (.leaf (.atom 1657))) (.nil)) (.nil)))))) (.node (.node (.node (.nil) (.node (.nil) (.node (.node (.node (.leaf (.atom 1381)) (.nil)) (.nil)) (.nil)))) (.nil)) (.node (.node (.node (.node (.node (.node (.leaf (.atom 467)) (.nil)) (.nil)) (.nil)) (.nil)) (.node (.node (.node (.node (.leaf (.atom 887)) (.nil)) (.nil)) (.nil)) (.nil))) (.nil)))

def turnQ8_23 : JTree := .node (.node (.node (.node (.node (.node (.node (.node (.leaf (.atom 67)) (.nil)) (.nil)) (.nil)) (.nil)) (.nil)) (.node (.node (.node (.node (.node (.leaf (.atom 571)) (.nil)) (.nil)) (.nil)) (.nil)) (.nil))) (.node (.node (.node (.node (.node (.node (.leaf (.atom 389)) (.nil)) (.nil)) (.nil)) (.nil)) (.node (.node (.node (.node (.leaf (.trans [(2846534, .ofNat 1), (2856734, .ofNat 1), (2867702, .ofNat 1), (4157997, .ofNat 1), (4176867, .ofNat 1), (4243749, .ofNat 1), (733923826, .ofNat 1), (1136799201, .ofNat 1), (2189149862, .ofNat 1), (2209425962, .ofNat 1), (2263356922, .ofNat 1), (3552149163, .negSucc 0), (3592108677, .negSucc 0), (3634002219, .negSucc 0), (400557575414, .ofNat 1), (615198985347, .negSucc 0)] 0)) (.nil)) (.nil)) (.nil)) (.node (.node (.node (.leaf (.trans [(1312874, .ofNat 1), (1861269, .ofNat 1)] 0)) (.nil)) (.nil)) (.nil)))) (.nil))) (.node (.node (.node (.node (.node (.node (.node (.leaf (.atom 277)) (.nil)) (.nil)) (.nil)) (.nil)) (.node (.nil) (.node (.node (.node (.leaf (.atom 1303)) (.nil)) (.nil)) (.nil)))) (.nil)) (.node (.node (.node (.node (.node (.node (.leaf (.atom 431)) (.nil)) (.nil)) (.nil)) (.nil)) (.node (.nil) (.node (.node (.node (.leaf (.atom 1619)) (.nil)) (.nil)) (.nil)))) (.nil)))

def turnQ8_24 : JTree := .node (.node (.node (.node (.nil) (.node (.nil) (.node (.node (.node (.leaf (.atom 1223)) (.nil)) (.nil)) (.nil)))) (.node (.node (.node (.node (.node (.leaf (.atom 653)) (.nil)) (.nil)) (.nil)) (.nil)) (.nil))) (.node (.node (.node (.node (.node (.node (.leaf (.trans [(758, .ofNat 1), (1203, .negSucc 0)] 0)) (.nil)) (.nil)) (.nil)) (.nil)) (.node (.nil) (.node (.node (.node (.leaf (.atom 1523)) (.nil)) (.nil)) (.nil)))) (.nil))) (.node (.node (.node (.node (.node (.node (.node (.leaf (.atom 337)) (.nil)) (.nil)) (.nil)) (.nil)) (.node (.node (.node (.node (.leaf (.atom 827)) (.nil)) (.nil)) (.nil)) (.node (.node (.node (.leaf (.atom 1447)) (.nil)) (.nil)) (.nil)))) (.nil)) (.node (.nil) (.node (.node (.nil) (.node (.node (.node (.leaf (.atom 1021)) (.nil)) (.nil)) (.nil))) (.nil))))

def turnQ8_25 : JTree := .node (.node (.node (.node (.node (.node (.node (.node (.leaf (.atom 17)) (.nil)) (.nil)) (.nil)) (.nil)) (.node (.nil) (.node (.node (.node (.leaf (.atom 1061)) (.nil)) (.nil)) (.nil)))) (.node (.node (.node (.node (.node (.leaf (.atom 509)) (.nil)) (.nil)) (.nil)) (.nil)) (.nil))) (.node (.node (.nil) (.node (.node (.node (.node (.leaf (.trans [(1366474, .ofNat 1), (1381846, .ofNat 1), (1397962, .ofNat 1), (1894821, .ofNat 1), (1912371, .ofNat 1), (1959051, .ofNat 1), (236660506, .ofNat 1), (346703037, .ofNat 1)] 0)) (.nil)) (.nil)) (.nil)) (.node (.node (.node (.leaf (.trans [(1221202, .ofNat 1), (2008599, .negSucc 0)] 0)) (.nil)) (.nil)) (.nil)))) (.nil))) (.node (.node (.node (.nil) (.node (.nil) (.node (.node (.node (.leaf (.atom 1237)) (.nil)) (.nil)) (.nil)))) (.nil)) (.node (.node (.nil) (.node (.nil) (.node (.node (.node (.leaf (.atom 1559)) (.nil)) (.nil)) (.nil)))) (.node (.nil) (.node (.nil) (.node (.node (.node (.nil) (.leaf (.atom 1709))) (.nil)) (.nil))))))

def turnQ8_26 : JTree := .node (.node (.node (.node (.nil) (.node (.nil) (.node (.node (.node (.leaf (.atom 1153)) (.nil)) (.nil)) (.nil)))) (.node (.node (.node (.node (.node (.leaf (.atom 599)) (.nil)) (.nil)) (.nil)) (.nil)) (.nil))) (.node (.nil) (.node (.node (.node (.node (.node (.leaf (.atom 743)) (.nil)) (.nil)) (.nil)) (.nil)) (.nil)))) (.node (.node (.node (.node (.node (.node (.node (.leaf (.atom 313)) (.nil)) (.nil)) (.nil)) (.nil)) (.node (.node (.node (.node (.leaf (.atom 821)) (.nil)) (.nil)) (.nil)) (.node (.node (.node (.leaf (.atom 1367)) (.nil)) (.nil)) (.nil)))) (.nil)) (.node (.node (.node (.node (.node (.node (.leaf (.atom 461)) (.nil)) (.nil)) (.nil)) (.nil)) (.nil)) (.nil)))

def turnQ8_27 : JTree := .node (.node (.node (.node (.node (.node (.node (.node (.leaf (.trans [(2, .ofNat 1)] 0)) (.nil)) (.nil)) (.nil)) (.nil)) (.node (.nil) (.node (.node (.node (.leaf (.atom 1109)) (.nil)) (.nil)) (.nil)))) (.node (.node (.node (.node (.node (.leaf (.atom 563)) (.nil)) (.nil)) (.nil)) (.nil)) (.nil))) (.node (.node (.node (.node (.node (.node (.leaf (.atom 379)) (.nil)) (.nil)) (.nil)) (.nil)) (.node (.node (.node (.node (.leaf (.trans [(1658, .ofNat 1), (2463, .ofNat 1), (1313614, .ofNat 1), (2084799, .negSucc 0)] 0)) (.nil)) (.nil)) (.nil)) (.node (.node (.node (.leaf (.trans [(228024278, .ofNat 1), (334051131, .ofNat 1)] 0)) (.nil)) (.nil)) (.nil)))) (.nil))) (.node (.node (.node (.node (.node (.node (.node (.leaf (.atom 271)) (.nil)) (.nil)) (.nil)) (.nil)) (.node (.node (.node (.node (.leaf (.atom 809)) (.nil)) (.nil)) (.nil)) (.node (.node (.node (.leaf (.atom 1297)) (.nil)) (.nil)) (.nil)))) (.nil)) (.node (.node (.nil) (.node (.nil) (.node (.node (.node (.leaf (.atom 1609)) (.nil)) (.nil)) (.nil)))) (.nil)))

def turnQ8_28 : JTree := .node (.node (.node (.node (.nil) (.node (.nil) (.node (.node (.node (.leaf (.atom 1213)) (.nil)) (.nil)) (.nil)))) (.node (.node (.node (.node (.node (.leaf (.atom 643)) (.nil)) (.nil)) (.nil)) (.nil)) (.nil))) (.node (.node (.node (.node (.node (.node (.leaf (.trans [(734, .ofNat 1), (1191, .negSucc 0)] 0)) (.nil)) (.nil)) (.nil)) (.nil)) (.nil)) (.nil))) (.node (.node (.node (.nil) (.node (.nil) (.node (.node (.node (.leaf (.atom 1433)) (.nil)) (.nil)) (.nil)))) (.nil)) (.node (.node (.nil) (.node (.node (.node (.node (.leaf (.atom 919)) (.nil)) (.nil)) (.nil)) (.nil))) (.node (.node (.nil) (.node (.node (.node (.leaf (.atom 1013)) (.nil)) (.nil)) (.nil))) (.nil))))

def turnQ8_29 : JTree := .node (.node (.node (.node (.node (.node (.node (.node (.leaf (.atom 31)) (.nil)) (.nil)) (.nil)) (.nil)) (.node (.nil) (.node (.node (.node (.leaf (.atom 1091)) (.nil)) (.nil)) (.nil)))) (.node (.node (.node (.node (.node (.leaf (.atom 541)) (.nil)) (.nil)) (.nil)) (.nil)) (.nil))) (.node (.node (.nil) (.node (.node (.node (.node (.leaf (.trans [(1642, .ofNat 1), (2487, .negSucc 0), (1389866, .negSucc 0), (1970421, .negSucc 0)] 0)) (.nil)) (.nil)) (.nil)) (.node (.node (.node (.leaf (.atom 1459)) (.nil)) (.nil)) (.nil)))) (.nil))) (.node (.node (.node (.node (.node (.node (.node (.leaf (.atom 263)) (.nil)) (.nil)) (.nil)) (.nil)) (.node (.nil) (.node (.node (.node (.leaf (.atom 1279)) (.nil)) (.nil)) (.nil)))) (.node (.node (.node (.node (.node (.leaf (.atom 709)) (.nil)) (.nil)) (.nil)) (.nil)) (.nil))) (.node (.node (.nil) (.node (.node (.node (.node (.leaf (.atom 859)) (.nil)) (.nil)) (.nil)) (.node (.node (.node (.leaf (.atom 1583)) (.nil)) (.nil)) (.nil)))) (.node (.nil) (.node (.nil) (.node (.node (.node (.nil) (.leaf (.atom 1723))) (.nil)) (.nil))))))

def turnQ8_30 : JTree := .node (.node (.node (.nil) (.node (.node (.node (.node (.node (.leaf (.atom 617)) (.nil)) (.nil)) (.nil)) (.nil)) (.nil))) (.node (.node (.nil) (.node (.nil) (.node (.node (.node (.leaf (.atom 1487)) (.nil)) (.nil)) (.nil)))) (.node (.node (.node (.node (.node (.leaf (.atom 769)) (.nil)) (.nil)) (.nil)) (.nil)) (.node (.nil) (.node (.node (.node (.nil) (.leaf (.atom 1667))) (.nil)) (.nil)))))) (.node (.node (.node (.nil) (.node (.nil) (.node (.node (.node (.leaf (.atom 1409)) (.nil)) (.nil)) (.nil)))) (.nil)) (.node (.node (.node (.node (.node (.node (.leaf (.atom 487)) (.nil)) (.nil)) (.nil)) (.nil)) (.nil)) (.nil)))

def turnQ8_31 : JTree := .node (.node (.node (.node (.node (.node (.node (.node (.leaf (.atom 61)) (.nil)) (.nil)) (.nil)) (.nil)) (.nil)) (.node (.node (.node (.node (.node (.leaf (.atom 577)) (.nil)) (.nil)) (.nil)) (.nil)) (.node (.node (.node (.node (.leaf (.atom 953)) (.nil)) (.nil)) (.nil)) (.nil)))) (.node (.node (.node (.node (.node (.node (.leaf (.atom 401)) (.nil)) (.nil)) (.nil)) (.nil)) (.node (.nil) (.node (.node (.node (.leaf (.trans [(4659776158, .ofNat 1), (4676473558, .ofNat 1), (4694428174, .ofNat 1), (6806641089, .ofNat 1), (6837531279, .ofNat 1), (6947017113, .ofNat 1), (1201433303162, .ofNat 1), (1860940292037, .ofNat 1), (3583638324094, .ofNat 1), (3616830299794, .ofNat 1), (3705115281314, .ofNat 1), (5814868179831, .negSucc 0), (5880281904249, .negSucc 0), (5948861632503, .negSucc 0), (655712750952718, .ofNat 1), (1007080739013039, .negSucc 0)] 0)) (.nil)) (.nil)) (.nil)))) (.nil))) (.node (.node (.node (.node (.node (.node (.node (.leaf (.atom 283)) (.nil)) (.nil)) (.nil)) (.nil)) (.node (.nil) (.node (.node (.node (.leaf (.atom 1319)) (.nil)) (.nil)) (.nil)))) (.nil)) (.node (.node (.node (.node (.node (.node (.leaf (.atom 439)) (.nil)) (.nil)) (.nil)) (.nil)) (.node (.node (.node (.node (.leaf (.atom 863)) (.nil)) (.nil)) (.nil)) (.node (.node (.node (.leaf (.atom 1627)) (.nil)) (.nil)) (.nil)))) (.nil)))

def turnQ8_32 : JTree := .node (.node (.node (.node (.nil) (.node (.nil) (.node (.node (.node (.leaf (.atom 1231)) (.nil)) (.nil)) (.nil)))) (.node (.node (.node (.node (.node (.leaf (.atom 659)) (.nil)) (.nil)) (.nil)) (.nil)) (.nil))) (.node (.node (.node (.node (.node (.node (.leaf (.trans [(794, .ofNat 1), (1101, .ofNat 1)] 0)) (.nil)) (.nil)) (.nil)) (.nil)) (.node (.nil) (.node (.node (.node (.leaf (.atom 1543)) (.nil)) (.nil)) (.nil)))) (.nil))) (.node (.node (.node (.node (.node (.node (.node (.leaf (.atom 349)) (.nil)) (.nil)) (.nil)) (.nil)) (.node (.node (.node (.node (.leaf (.atom 839)) (.nil)) (.nil)) (.nil)) (.node (.node (.node (.leaf (.atom 1451)) (.nil)) (.nil)) (.nil)))) (.nil)) (.node (.nil) (.node (.node (.nil) (.node (.node (.node (.leaf (.atom 1033)) (.nil)) (.nil)) (.nil))) (.nil))))

/-- The cells as polynomials, `2` and `3` being the cosine and the sine of q8. -/
def turnQ8 : JTree := .node (.node (.node (.node (.node (turnQ8_1) (turnQ8_2)) (.node (turnQ8_3) (turnQ8_4))) (.node (.node (turnQ8_5) (turnQ8_6)) (.node (turnQ8_7) (turnQ8_8)))) (.node (.node (.node (turnQ8_9) (turnQ8_10)) (.node (turnQ8_11) (turnQ8_12))) (.node (.node (turnQ8_13) (turnQ8_14)) (.node (turnQ8_15) (turnQ8_16))))) (.node (.node (.node (.node (turnQ8_17) (turnQ8_18)) (.node (turnQ8_19) (turnQ8_20))) (.node (.node (turnQ8_21) (turnQ8_22)) (.node (turnQ8_23) (turnQ8_24)))) (.node (.node (.node (turnQ8_25) (turnQ8_26)) (.node (turnQ8_27) (turnQ8_28))) (.node (.node (turnQ8_29) (turnQ8_30)) (.node (turnQ8_31) (turnQ8_32)))))

/-- The primes of the other cells. -/
def turnQ8Primes : List (ℕ × ℕ) := [(11, 1), (13, 2), (17, 3), (19, 4), (23, 5), (29, 6), (31, 7), (37, 8), (41, 9), (43, 10), (67, 13), (71, 14), (61, 15), (59, 17), (251, 28), (257, 32), (263, 39), (269, 40), (271, 43), (277, 45), (281, 46), (283, 47), (293, 48), (307, 49), (311, 50), (313, 51), (317, 52), (331, 60), (337, 61), (347, 62), (349, 63), (353, 64), (359, 65), (367, 73), (373, 74), (379, 75), (383, 76), (389, 77), (397, 78), (401, 79), (409, 80), (419, 81), (421, 82), (431, 109), (433, 110), (439, 111), (443, 112), (449, 113), (457, 114), (461, 115), (463, 116), (467, 117), (479, 118), (487, 119), (491, 126), (499, 128), (503, 130), (509, 131), (521, 132), (523, 134), (541, 135), (547, 137), (557, 138), (563, 139), (569, 140), (571, 141), (577, 143), (587, 145), (593, 146), (599, 147), (601, 148), (607, 149), (613, 150), (617, 151), (619, 152), (631, 153), (641, 154), (643, 155), (647, 156), (653, 157), (659, 159), (661, 160), (673, 161), (677, 162), (683, 164), (691, 165), (701, 166), (709, 167), (719, 168), (727, 169), (733, 209), (739, 210), (743, 211), (751, 212), (757, 213), (761, 214), (769, 215), (773, 216), (787, 217), (797, 268), (809, 299), (811, 302), (821, 307), (823, 308), (827, 317), (829, 318), (839, 319), (853, 322), (857, 358), (859, 359), (863, 367), (877, 368), (881, 369), (883, 372), (887, 373), (907, 374), (911, 378), (919, 379), (929, 380), (937, 384), (941, 385), (947, 386), (953, 399), (967, 400), (971, 401), (5, 494), (977, 582), (983, 584), (991, 760), (997, 761), (1009, 762), (1013, 763), (1019, 764), (1021, 765), (1031, 766), (1033, 767), (1039, 768), (1049, 769), (1051, 770), (1061, 771), (1063, 772), (1069, 773), (1087, 774), (1091, 775), (1093, 776), (1097, 777), (1103, 778), (1109, 779), (1117, 780), (1123, 784), (1129, 785), (1151, 786), (1153, 787), (1163, 788), (1171, 789), (1181, 790), (1187, 792), (1193, 793), (1201, 794), (1213, 795), (1217, 796), (1223, 797), (1229, 798), (1231, 799), (1237, 803), (1249, 804), (1259, 805), (1277, 806), (1279, 807), (1283, 808), (1289, 809), (1291, 810), (1297, 811), (1301, 812), (1303, 813), (1307, 814), (1319, 815), (1321, 816), (1327, 817), (1361, 818), (1367, 819), (1373, 820), (1381, 821), (1399, 822), (1409, 823), (1423, 824), (1427, 825), (1429, 826), (1433, 827), (1439, 828), (1447, 829), (1451, 831), (1453, 838), (1459, 839), (1471, 840), (1481, 842), (1483, 849), (1487, 855), (1489, 856), (1493, 857), (1499, 858), (1511, 860), (1523, 861), (1531, 862), (1543, 863), (1549, 865), (1553, 866), (1559, 867), (1567, 868), (1571, 869), (1579, 870), (1583, 871), (1597, 872), (1601, 873), (1607, 874), (1609, 875), (1613, 876), (1619, 877), (1621, 878), (1627, 879), (1637, 5064), (1657, 5077), (1663, 5078), (1667, 5079), (1669, 5080), (1693, 5081), (1697, 5082), (1699, 5090), (1709, 5091), (1721, 5093), (1723, 5095), (1733, 5097)]

/-- Variables for polynomials. -/
def turnQ8Ghosts : List (ℕ × Poly × ℕ) := []

end BP.EL
